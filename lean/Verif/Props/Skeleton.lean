import Verif.Lemmas.Skeleton
import Verif.Props.CellNet
import Verif.Props.GraphNets
import Verif.Props.Embed

/-!
# C90: what rings and cliques add to the Weisfeiler-Lehman test
-/

namespace Verif

variable {𝕜 R L : Type} [Field 𝕜] [AddCommGroup R] [Module 𝕜 R]

/-- The graph as the graph baselines get it. -/
def FGraph.data (G : FGraph R L) : GData R where
  x := G.x
  edges := G.edges

/-- The graph without features of edges. -/
def RGraph.bare (G : RGraph R L) : FGraph R L where
  size := G.size
  x := G.x
  edges := G.edges
  y := G.y

/-! ### Clique complexes and GIN -/

theorem sim_rows {g : GData R} (hg : g.Plain) {K : Cells} (hK : Skel K g.edges g.x.length) (down : Bool) :
    ∀ (ls : List (GINLevel 𝕜 R)) (H : Nat → Finset Nat → R) (row : Nat → R),
      (∀ c < g.x.length, H 0 {c} = row c) → ∀ c < g.x.length,
      ((K.run down 2 H ((ls.map fun l => List.replicate 3 (simLevel l)).map (rulesOf SparseLevel.rule))).map
        fun H => H 0 {c}) = (ginRows g.edges row ls).map fun r => r c
  | [], _, _, _, _, _ => rfl
  | l :: ls, H, row, hH, c, hc => by
    have hnew : ∀ c < g.x.length, K.step (rulesOf SparseLevel.rule (List.replicate 3 (simLevel l)) 0) down H 0 {c} =
        l.nn (((g.edges.filter fun p => p.2 == c).map fun p => row p.1).sum + (1 + l.eps) • row c) := by
      intro c hc
      rw [hK.step_zero hg.edges]
      show l.nn (∑ u ∈ nbrs g.edges g.x.length c, H 0 {u} + (1 + l.eps) • H 0 {c}) = _
      rw [hH c hc, sum_nbrs hg.edges hg.loops hg.simple]
      congr 3
      refine List.map_congr_left fun p hp => ?_
      exact hH _ (hg.edges p (List.mem_of_mem_filter hp)).1
    simp only [List.map_cons, Cells.run, ginRows, Nat.zero_le, if_true]
    rw [hnew c hc]
    congr 1
    refine sim_rows hg hK down ls _ _ (fun c hc => ?_) c hc
    simp only [Nat.zero_le, if_true]
    exact hnew c hc

theorem sim_predictOn (net : GINNet 𝕜 R) {g : GData R} (hg : g.Plain) {K : Cells} (hK : Skel K g.edges g.x.length)
    {H : Nat → Finset Nat → R} (hH : ∀ c < g.x.length, H 0 {c} = rowOf g.x c) (down : Bool) :
    (simNet net).predictOn 𝕜 SparseLevel.rule down K H = net.predict g := by
  have hrun := sim_rows hg hK down (net.conv1 :: net.convs) H (rowOf g.x) hH
  unfold SparseNet.predictOn GINNet.predict
  have hd : (simNet net).dims = [0] := rfl
  rw [hd]
  have hsum : ∑ s ∈ K 0, jumpOf net.jump (K.run down 2 H ((simNet net).convs.map (rulesOf SparseLevel.rule))) 0 s =
      ((List.range g.x.length).map fun c => match net.jump with
        | none => (((ginRows g.edges (rowOf g.x) (net.conv1 :: net.convs)).getLast?).map fun r => r c).getD 0
        | some f => f ((ginRows g.edges (rowOf g.x) (net.conv1 :: net.convs)).map fun r => r c)).sum := by
    rw [hK.sum_zero]
    congr 1
    refine List.map_congr_left fun c hc => ?_
    have := hrun c (List.mem_range.mp hc)
    unfold jumpOf
    cases net.jump with
    | none =>
      have := congrArg List.getLast? this
      rw [List.getLast?_map, List.getLast?_map] at this
      simp only [← this]
      rfl
    | some f => simp only [← this]; rfl
  have hcard : (K 0).card = g.x.length := by
    rw [Finset.card_eq_sum_ones, hK.sum_zero]
    simp
  show net.lin2 (poolOf 𝕜 "sum" [net.act (net.lin1 (poolSet 𝕜 net.readout (K 0) (jumpOf net.jump
    (K.run down 2 H ((simNet net).convs.map (rulesOf SparseLevel.rule))) 0)))]) = _
  simp only [poolOf, List.sum_cons, List.sum_nil, add_zero, poolSet, List.length_map, List.length_range]
  rw [hsum, hcard]
  rfl

theorem FGraph.plain {G : FGraph R L} (h : G.Ok) (hl : NoLoops G.edges) (hs : Simple G.edges) : G.data.Plain := by
  refine ⟨?_, hl, hs⟩
  show EdgesIn G.edges G.x.length
  rw [h.rows]
  exact h.edges

theorem RGraph.plain {G : RGraph R L} (h : G.Ok) (hs : Simple G.edges) : G.data.Plain := by
  refine ⟨?_, h.loops, hs⟩
  show EdgesIn G.edges G.x.length
  rw [h.rows]
  exact h.edges

theorem FGraph.skel {G : FGraph R L} (h : G.Ok) (k : Nat) {m : Nat} (hm : 1 ≤ m) :
    Skel ((cliqueSets G.edges G.size k).upTo m) G.data.edges G.data.x.length := by
  show Skel _ G.edges G.x.length
  rw [h.rows]
  exact (skel_cliques h.edges k).upTo hm

theorem RGraph.skel {G : RGraph R L} (h : G.Ok) (maxK : Nat) :
    Skel (ringSets G.edges G.size maxK) G.data.edges G.data.x.length := by
  show Skel _ G.edges G.x.length
  rw [h.rows]
  exact skel_rings h.edges maxK

theorem clique_sparse {g : Gudhi} (hg : g.Ok) {agg : List R → R}
    (hagg : ∀ l l' : List R, l.Perm l' → agg l = agg l') (k : Nat) (down : Bool)
    {sparse : SparseNet R (SparseLevel 𝕜 R)} (hs : sparse.Fits) {Gs : List (FGraph R L)} (hne : Gs ≠ [])
    (hG : ∀ G ∈ Gs, G.Ok) (mB : Nat) :
    ∃ cs, mapE (FGraph.lift g agg k down) Gs = .ok cs ∧
      (fromComplexList cs mB >>= sparse.forward 𝕜 SparseLevel.forward) = .ok (Gs.map fun G =>
        sparse.predictOn 𝕜 SparseLevel.rule down ((cliqueSets G.edges G.size k).upTo mB) (cliqueFeatures agg G.x)) := by
  obtain ⟨cs, h1, h2⟩ := mapE_forall₂ (f := FGraph.lift g agg k down) (P := fun G comp => comp.Ready ∧
      0 < comp.cellsIn 0 ∧ ∃ cells, Shows (comp.view.upTo mB) down cells (cliqueFeatures agg G.x) ∧
        setsOf cells = (cliqueSets G.edges G.size k).upTo mB) (l := Gs) (fun G h => by
    have ok := hG G h
    obtain ⟨comp, e, rest⟩ := clique_shows hg hagg ok.edges ok.pos ok.rows k ok.labels down mB
    exact ⟨comp, e, rest⟩)
  have hall : ∀ c ∈ cs, c.Ready ∧ 0 < c.cellsIn 0 := by
    intro c hc
    obtain ⟨G, -, h⟩ := forall₂_source h2 hc
    exact ⟨h.1, h.2.1⟩
  have hne' : cs ≠ [] := by
    rintro rfl
    cases h2
    exact hne rfl
  refine ⟨cs, h1, ?_⟩
  rw [SparseNet.forward_all (realises_sparse false) hs hne' (fun c hc => (hall c hc).1) (fun c hc => (hall c hc).2) mB,
    ok_inj]
  refine map_of_forall₂ h2 fun G c => ?_
  rintro ⟨-, -, cells, hv, hset⟩
  rw [SparseNet.predict_eq hv, hset]

/-- **C90** Whatever a GIN computes, some SparseCIN with as many layers computes it on the clique complexes of
the graphs, for any dimension of the complexes. -/
theorem C90_clique_simulates_gin (net : GINNet 𝕜 R) (hread : net.readout = "sum" ∨ net.readout = "mean") :
    ∃ cin : SparseNet R (SparseLevel 𝕜 R), cin.Fits ∧ cin.convs.length = net.convs.length + 1 ∧
      ∀ (g : Gudhi) (_ : g.Ok) (agg : List R → R) (_ : ∀ l l' : List R, l.Perm l' → agg l = agg l') (k : Nat)
        (down : Bool) (Gs : List (FGraph R L)) (_ : Gs ≠ [])
        (_ : ∀ G ∈ Gs, G.Ok ∧ NoLoops G.edges ∧ Simple G.edges) (mB : Nat) (_ : 1 ≤ mB),
        ∃ cs preds, mapE (FGraph.lift g agg k down) Gs = .ok cs ∧
          (fromComplexList cs mB >>= cin.forward 𝕜 SparseLevel.forward) = .ok preds ∧
          net.forward (gBatch (Gs.map FGraph.data)) = .ok preds := by
  refine ⟨simNet net, simNet_fits net hread, by simp [simNet], ?_⟩
  intro g hg agg hagg k down Gs hne hG mB hmB
  obtain ⟨cs, ecs, h1⟩ := clique_sparse hg hagg k down (simNet_fits net hread) hne (fun G h => (hG G h).1) mB
  refine ⟨cs, _, ecs, h1, ?_⟩
  rw [net.forward_ok hread (by simpa using hne) ?_, List.map_map]
  · congr 1
    refine List.map_congr_left fun G h => ?_
    obtain ⟨ho, hl, hs⟩ := hG G h
    symm
    refine sim_predictOn net (FGraph.plain ho hl hs) (FGraph.skel ho k hmB) (fun c _ => ?_) down
    show ∑ v ∈ {c}, rowOf G.x v = _
    rw [Finset.sum_singleton]
    rfl
  · intro d hd
    obtain ⟨G, h, rfl⟩ := List.mem_map.mp hd
    obtain ⟨ho, hl, hs⟩ := hG G h
    refine ⟨(FGraph.plain ho hl hs).edges, ?_⟩
    apply List.ne_nil_of_length_pos
    show 0 < G.x.length
    rw [ho.rows]
    exact ho.pos

/-- A layer that forgets everything. -/
def oneLevel : SparseLevel ℚ ℚ where
  msgUp := .plain id
  msgBoundary := id
  updateUp := id
  updateBoundary := id
  combine _ _ := 1
  eps1 := 0
  eps2 := 0

/-- A network that counts the cells of dimension `d`. -/
def cellsNet (d : Nat) : SparseNet ℚ (SparseLevel ℚ ℚ) where
  convs := [List.replicate (d + 1) oneLevel]
  maxDim := d
  readoutDims := some [d]
  act := id
  lin1s := List.replicate (d + 1) id
  lin2 := id

theorem cellsNet_dims (d : Nat) : (cellsNet d).dims = [d] := by simp [SparseNet.dims, cellsNet]

theorem cellsNet_fits (d : Nat) : (cellsNet d).Fits := by
  refine ⟨by simp [cellsNet], ?_, by simp [cellsNet], .inl rfl, .inl rfl, by simp [cellsNet_dims]⟩
  intro conv hc
  rw [List.mem_singleton.mp hc]
  simp [cellsNet]

theorem cellsNet_predict (d : Nat) (down : Bool) (K : Cells) (H : Nat → Finset Nat → ℚ) :
    (cellsNet d).predictOn ℚ SparseLevel.rule down K H = ((K d).card : ℚ) := by
  have hlin : (cellsNet d).lin1s[d]?.getD id = (id : ℚ → ℚ) := by simp [cellsNet]
  have hj : jumpOf (cellsNet d).jump (K.run down (cellsNet d).maxDim H
      ((cellsNet d).convs.map (rulesOf SparseLevel.rule))) d = fun _ => 1 := by
    funext s
    show (if d ≤ d then K.step (rulesOf SparseLevel.rule (List.replicate (d + 1) oneLevel) d) down H d s else _) = 1
    rw [if_pos (Nat.le_refl d)]
    have : rulesOf SparseLevel.rule (List.replicate (d + 1) oneLevel) d = oneLevel.rule := by simp [rulesOf]
    rw [this]
    rfl
  unfold SparseNet.predictOn
  rw [cellsNet_dims, List.map_cons, List.map_nil, hlin, hj]
  show poolOf ℚ "sum" [poolSet ℚ "sum" (K d) fun _ => 1] = _
  simp [poolOf, poolSet]

theorem card_cliques (edges : List (Nat × Nat)) (size : Nat) {k d : Nat} (hd : d ≤ max k 1) :
    (cliqueSets edges size k d).card = cliqueNumber edges size d := by
  unfold cliqueNumber
  congr 1
  ext s
  rw [mem_cliques, Finset.mem_filter, Finset.mem_powersetCard]
  exact ⟨fun h => h.2, fun h => ⟨hd, h⟩⟩

/-- **C90** SparseCIN counts cliques: for every `d` there is a network with one layer whose prediction for the
clique complex of a graph is the number of cliques of `d + 1` nodes, if the complex goes that far. -/
theorem C90_counts_cliques (d : Nat) :
    ∃ cin : SparseNet ℚ (SparseLevel ℚ ℚ), cin.Fits ∧ cin.convs.length = 1 ∧
      ∀ (g : Gudhi) (_ : g.Ok) (agg : List ℚ → ℚ) (_ : ∀ l l' : List ℚ, l.Perm l' → agg l = agg l') (k : Nat)
        (_ : d ≤ k) (down : Bool) (Gs : List (FGraph ℚ L)) (_ : Gs ≠ []) (_ : ∀ G ∈ Gs, G.Ok) (mB : Nat) (_ : d ≤ mB),
        ∃ cs, mapE (FGraph.lift g agg k down) Gs = .ok cs ∧
          (fromComplexList cs mB >>= cin.forward ℚ SparseLevel.forward) =
            .ok (Gs.map fun G => (cliqueNumber G.edges G.size d : ℚ)) := by
  refine ⟨cellsNet d, cellsNet_fits d, rfl, ?_⟩
  intro g hg agg hagg k hk down Gs hne hG mB hmB
  obtain ⟨cs, ecs, h1⟩ := clique_sparse hg hagg k down (cellsNet_fits d) hne hG mB
  refine ⟨cs, ecs, h1.trans ?_⟩
  rw [ok_inj]
  refine List.map_congr_left fun G _ => ?_
  rw [cellsNet_predict, ← card_cliques G.edges G.size (k := k) (by omega)]
  show (((if d ≤ mB then cliqueSets G.edges G.size k d else ∅).card : Nat) : ℚ) = _
  rw [if_pos hmB]

/-! ### Complexes without cells above the edges -/

/-- A graph as the graph datasets give them: every edge once in each direction, no loops. -/
abbrev FGraph.Usual (G : FGraph R L) : Prop := G.Ok ∧ NoLoops G.edges ∧ Simple G.edges

theorem FGraph.flat {G : FGraph R L} {k mB : Nat} (h : k ≤ 1 ∨ mB = 1 ∨ ¬ HasTriangle G.edges) :
    Flat ((cliqueSets G.edges G.size k).upTo mB) := by
  rcases h with h | h | h
  · exact (flat_cliques (.inl h) G.size).upTo mB
  · rw [h]
    exact flat_upTo_one _
  · exact (flat_cliques (.inr h) G.size).upTo mB

theorem RGraph.flat {G : RGraph R L} {maxK mB : Nat} (h : mB = 1 ∨ ∀ r, IsRing G.edges r → maxK < r.length) :
    Flat ((ringSets G.edges G.size maxK).upTo mB) := by
  rcases h with h | h
  · rw [h]
    exact flat_upTo_one _
  · exact (flat_rings h G.size).upTo mB

theorem map_alike {X Y : Type} {Gs Hs : List X} {P : X → X → Prop} (hP : List.Forall₂ P Gs Hs) {f g : X → Y}
    (h : ∀ G ∈ Gs, ∀ H ∈ Hs, P G H → f G = g H) : Gs.map f = Hs.map g := by
  induction hP with
  | nil => rfl
  | @cons G H Gs Hs h1 _ ih =>
    rw [List.map_cons, List.map_cons, h G (by simp) H (by simp) h1,
      ih fun G hG H hH => h G (by simp [hG]) H (by simp [hH])]

/-- **C90** On clique complexes without triangles (because the complexes are cut off below dimension 2 or
because the graphs have none) SparseCIN, CIN++ and CIN see no more than the Weisfeiler-Lehman test: if the test
does not tell the graphs of two batches apart in one round more than a network has layers, the network gives the
batches the same predictions. -/
theorem C90_without_triangles (h2 : (2 : 𝕜) ≠ 0) (g : Gudhi) (hg : g.Ok) (agg : List R → R)
    (hagg : ∀ l l' : List R, l.Perm l' → agg l = agg l') (k : Nat) (down : Bool)
    (sparse : SparseNet R (SparseLevel 𝕜 R)) (hs : sparse.Fits)
    (pp : SparseNet R (PPLevel 𝕜 R)) (hp : pp.Fits) (cin : CINNet R (CINLevel 𝕜 R)) (hc : cin.Fits)
    (Gs Hs : List (FGraph R L)) (hne : Gs ≠ []) (hG : ∀ G ∈ Gs ++ Hs, G.Usual) (mB : Nat) (hmB : 1 ≤ mB)
    (hflat : k ≤ 1 ∨ mB = 1 ∨ ∀ G ∈ Gs ++ Hs, ¬ HasTriangle G.edges)
    (hsame : List.Forall₂ (fun G H => SameNodes G.data H.data
      (max sparse.convs.length (max pp.convs.length cin.convs.length) + 1)) Gs Hs) :
    ∃ cs ds ps qs rs, mapE (FGraph.lift g agg k down) Gs = .ok cs ∧ mapE (FGraph.lift g agg k down) Hs = .ok ds ∧
      (fromComplexList cs mB >>= sparse.forward 𝕜 SparseLevel.forward) = .ok ps ∧
      (fromComplexList ds mB >>= sparse.forward 𝕜 SparseLevel.forward) = .ok ps ∧
      (fromComplexList cs mB >>= pp.forward 𝕜 PPLevel.forward) = .ok qs ∧
      (fromComplexList ds mB >>= pp.forward 𝕜 PPLevel.forward) = .ok qs ∧
      (fromComplexList cs mB >>= cin.forward 𝕜 CINLevel.forward) = .ok rs ∧
      (fromComplexList ds mB >>= cin.forward 𝕜 CINLevel.forward) = .ok rs := by
  have hne' : Hs ≠ [] := by
    rintro rfl
    cases hsame
    exact hne rfl
  obtain ⟨cs, e1, p1, p2, p3⟩ := C85_clique_predictions g hg agg hagg k down sparse hs pp hp cin hc Gs hne
    (fun G h => (hG G (by simp [h])).1) mB
  obtain ⟨ds, e2, q1, q2, q3⟩ := C85_clique_predictions g hg agg hagg k down sparse hs pp hp cin hc Hs hne'
    (fun G h => (hG G (by simp [h])).1) mB
  have hfl : ∀ G ∈ Gs ++ Hs, Flat ((cliqueSets G.edges G.size k).upTo mB) := fun G h =>
    FGraph.flat (hflat.imp_right (Or.imp_right fun hf => hf G h))
  have key : ∀ G ∈ Gs, ∀ H ∈ Hs, ∀ n,
      SameNodes G.data H.data (max sparse.convs.length (max pp.convs.length cin.convs.length) + 1) →
      n ≤ max sparse.convs.length (max pp.convs.length cin.convs.length) →
      SameAtoms G.data H.data (fun _ _ => ()) (fun _ _ => ()) (n + 1) := by
    intro G _ H _ n hS hn
    exact (sameAtoms_of_nodes hS fun _ _ _ _ _ _ => rfl).mono fun _ _ _ _ s => s.le (by omega)
  refine ⟨cs, ds, _, _, _, e1, e2, p1, q1.trans ?_, p2, q2.trans ?_, p3, q3.trans ?_⟩ <;> rw [ok_inj] <;> symm
  · refine map_alike hsame fun G h H h' hS => ?_
    obtain ⟨ho, hl, hsm⟩ := hG G (by simp [h])
    obtain ⟨ho', hl', hsm'⟩ := hG H (by simp [h'])
    exact sparse.alike h2 (FGraph.plain ho hl hsm) (FGraph.plain ho' hl' hsm') (fun _ _ => rfl) (fun _ _ => rfl)
      (FGraph.skel ho k hmB) (FGraph.skel ho' k hmB) ⟨hfl G (by simp [h]), hfl H (by simp [h'])⟩ (agree_clique hagg)
      (key G h H h' _ hS (by omega)) down
  · refine map_alike hsame fun G h H h' hS => ?_
    obtain ⟨ho, hl, hsm⟩ := hG G (by simp [h])
    obtain ⟨ho', hl', hsm'⟩ := hG H (by simp [h'])
    exact pp.alike h2 (FGraph.plain ho hl hsm) (FGraph.plain ho' hl' hsm') (fun _ _ => rfl) (fun _ _ => rfl)
      (FGraph.skel ho k hmB) (FGraph.skel ho' k hmB) ⟨hfl G (by simp [h]), hfl H (by simp [h'])⟩ (agree_clique hagg)
      (key G h H h' _ hS (by omega)) down
  · refine map_alike hsame fun G h H h' hS => ?_
    obtain ⟨ho, hl, hsm⟩ := hG G (by simp [h])
    obtain ⟨ho', hl', hsm'⟩ := hG H (by simp [h'])
    exact cin.alike h2 (FGraph.plain ho hl hsm) (FGraph.plain ho' hl' hsm') (fun _ _ => rfl) (fun _ _ => rfl)
      (FGraph.skel ho k hmB) (FGraph.skel ho' k hmB) ⟨hfl G (by simp [h]), hfl H (by simp [h'])⟩ (agree_clique hagg)
      (key G h H h' _ hS (by omega)) down

section
variable [DecidableEq R]

/-- **C90** On ring complexes without rings, SparseCIN, CIN++ and CIN see no more than the Weisfeiler-Lehman test
that also looks at the features of the edges. -/
theorem C90_without_rings (h2 : (2 : 𝕜) ≠ 0) (g : Gudhi) (hg : g.Ok) (lib : RingLib) (hl : lib.Ok) (agg : List R → R)
    (hagg : ∀ l l' : List R, l.Perm l' → agg l = agg l') (maxK : Nat) (down : Bool)
    (sparse : SparseNet R (SparseLevel 𝕜 R)) (hs : sparse.Fits)
    (pp : SparseNet R (PPLevel 𝕜 R)) (hp : pp.Fits) (cin : CINNet R (CINLevel 𝕜 R)) (hc : cin.Fits)
    (Gs Hs : List (RGraph R L)) (hne : Gs ≠ []) (hG : ∀ G ∈ Gs ++ Hs, G.Ok ∧ Simple G.edges) (mB : Nat) (hmB : 1 ≤ mB)
    (hflat : mB = 1 ∨ ∀ G ∈ Gs ++ Hs, ∀ r, IsRing G.edges r → maxK < r.length)
    (hsame : List.Forall₂ (fun G H => SameAtoms G.data H.data G.bond H.bond
      (max sparse.convs.length (max pp.convs.length cin.convs.length) + 1)) Gs Hs) :
    ∃ cs ds ps qs rs, mapE (RGraph.lift g lib agg maxK down true true) Gs = .ok cs ∧
      mapE (RGraph.lift g lib agg maxK down true true) Hs = .ok ds ∧
      (fromComplexList cs mB >>= sparse.forward 𝕜 SparseLevel.forward) = .ok ps ∧
      (fromComplexList ds mB >>= sparse.forward 𝕜 SparseLevel.forward) = .ok ps ∧
      (fromComplexList cs mB >>= pp.forward 𝕜 PPLevel.forward) = .ok qs ∧
      (fromComplexList ds mB >>= pp.forward 𝕜 PPLevel.forward) = .ok qs ∧
      (fromComplexList cs mB >>= cin.forward 𝕜 CINLevel.forward) = .ok rs ∧
      (fromComplexList ds mB >>= cin.forward 𝕜 CINLevel.forward) = .ok rs := by
  have hne' : Hs ≠ [] := by
    rintro rfl
    cases hsame
    exact hne rfl
  obtain ⟨cs, e1, p1, p2, p3⟩ := C85_ring_predictions g hg lib hl agg hagg maxK down sparse hs pp hp cin hc Gs hne
    (fun G h => (hG G (by simp [h])).1) mB
  obtain ⟨ds, e2, q1, q2, q3⟩ := C85_ring_predictions g hg lib hl agg hagg maxK down sparse hs pp hp cin hc Hs hne'
    (fun G h => (hG G (by simp [h])).1) mB
  have hfl : ∀ G ∈ Gs ++ Hs, Flat ((ringSets G.edges G.size maxK).upTo mB) := fun G h =>
    RGraph.flat (hflat.imp_right fun hf => hf G h)
  refine ⟨cs, ds, _, _, _, e1, e2, p1, q1.trans ?_, p2, q2.trans ?_, p3, q3.trans ?_⟩ <;> rw [ok_inj] <;> symm
  · refine map_alike hsame fun G h H h' hS => ?_
    obtain ⟨ho, hsm⟩ := hG G (by simp [h])
    obtain ⟨ho', hsm'⟩ := hG H (by simp [h'])
    exact sparse.alike h2 (RGraph.plain ho hsm) (RGraph.plain ho' hsm') (bond_comm G) (bond_comm H)
      ((RGraph.skel ho maxK).upTo hmB) ((RGraph.skel ho' maxK).upTo hmB) ⟨hfl G (by simp [h]), hfl H (by simp [h'])⟩
      (agree_ring ho ho' hagg) (hS.mono fun _ _ _ _ s => s.le (by omega)) down
  · refine map_alike hsame fun G h H h' hS => ?_
    obtain ⟨ho, hsm⟩ := hG G (by simp [h])
    obtain ⟨ho', hsm'⟩ := hG H (by simp [h'])
    exact pp.alike h2 (RGraph.plain ho hsm) (RGraph.plain ho' hsm') (bond_comm G) (bond_comm H)
      ((RGraph.skel ho maxK).upTo hmB) ((RGraph.skel ho' maxK).upTo hmB) ⟨hfl G (by simp [h]), hfl H (by simp [h'])⟩
      (agree_ring ho ho' hagg) (hS.mono fun _ _ _ _ s => s.le (by omega)) down
  · refine map_alike hsame fun G h H h' hS => ?_
    obtain ⟨ho, hsm⟩ := hG G (by simp [h])
    obtain ⟨ho', hsm'⟩ := hG H (by simp [h'])
    exact cin.alike h2 (RGraph.plain ho hsm) (RGraph.plain ho' hsm') (bond_comm G) (bond_comm H)
      ((RGraph.skel ho maxK).upTo hmB) ((RGraph.skel ho' maxK).upTo hmB) ⟨hfl G (by simp [h]), hfl H (by simp [h'])⟩
      (agree_ring ho ho' hagg) (hS.mono fun _ _ _ _ s => s.le (by omega)) down

/-- A layer of nothing. -/
def idleLevel (𝕜 R : Type) [Field 𝕜] [AddCommGroup R] : SparseLevel 𝕜 R := ⟨.plain id, id, id, id, fun u _ => u, 0, 0⟩

/-- A layer of nothing. -/
def idlePP (𝕜 R : Type) [Field 𝕜] [AddCommGroup R] : PPLevel 𝕜 R :=
  ⟨.plain id, .plain id, id, id, id, id, fun u _ _ => u, 0, 0, 0⟩

/-- A network of nothing. -/
def idleNet {Lv : Type} (R : Type) (l : Lv) : SparseNet R Lv where
  convs := [List.replicate 3 l]
  act := id
  lin1s := List.replicate 3 id
  lin2 := id

theorem idleNet_fits {Lv : Type} (l : Lv) : (idleNet R l).Fits := by
  refine ⟨by simp [idleNet], ?_, rfl, .inl rfl, .inl rfl, ?_⟩
  · intro conv hc
    rw [List.mem_singleton.mp hc]
    rfl
  · show [0, 1, 2] ≠ []
    simp

/-- **C90** EmbedSparseCINNoRings and EmbedGIN see no more than the Weisfeiler-Lehman test that also looks at the
features of the edges, whatever rings the graphs have: the test with one round more than EmbedSparseCINNoRings has
layers, or with as many as EmbedGIN has. -/
theorem C90_networks_without_rings (h2 : (2 : 𝕜) ≠ 0) (g : Gudhi) (hg : g.Ok) (lib : RingLib) (hl : lib.Ok)
    (agg : List R → R) (hagg : ∀ l l' : List R, l.Perm l' → agg l = agg l') (maxK : Nat)
    (down initEdges initRings : Bool)
    (flat : EmbedNet R (SparseLevel 𝕜 R)) (hf : flat.flat.net.Fits)
    (hrf : ∀ l l' : List R, l.Perm l' → flat.init.reduce l = flat.init.reduce l')
    (gin : EmbedGIN 𝕜 R) (hn : gin.convs ≠ []) (hread : gin.readout = "sum" ∨ gin.readout = "mean")
    (hrg : ∀ l l' : List R, l.Perm l' → gin.init.reduce l = gin.init.reduce l')
    (hemb : initEdges = true → flat.init.eEmbed.isSome ∧ gin.init.eEmbed.isSome)
    (Gs Hs : List (RGraph R L)) (hne : Gs ≠ []) (hG : ∀ G ∈ Gs ++ Hs, G.Ok ∧ Simple G.edges) (mB : Nat) (hmB : 1 ≤ mB)
    (n : Nat) (hsame : List.Forall₂ (fun G H => SameAtoms G.data H.data G.bond H.bond n) Gs Hs) :
    ∃ cs ds, mapE (RGraph.lift g lib agg maxK down initEdges initRings) Gs = .ok cs ∧
      mapE (RGraph.lift g lib agg maxK down initEdges initRings) Hs = .ok ds ∧
      (flat.net.convs.length < n → ∃ ps,
        (fromComplexList cs mB >>= flat.forwardNoRings 𝕜 SparseLevel.forward) = .ok ps ∧
        (fromComplexList ds mB >>= flat.forwardNoRings 𝕜 SparseLevel.forward) = .ok ps) ∧
      (gin.convs.length ≤ n → ∃ qs, (fromComplexList cs mB >>= gin.forward) = .ok qs ∧
        (fromComplexList ds mB >>= gin.forward) = .ok qs) := by
  have hne' : Hs ≠ [] := by
    rintro rfl
    cases hsame
    exact hne rfl
  have hms : min 2 mB ≤ 2 := by omega
  obtain ⟨cs, e1, -, -, p3, p4⟩ := C85_embedding_predictions g hg lib hl agg hagg maxK down initEdges initRings
    ⟨flat.init, idleNet R (idleLevel 𝕜 R)⟩ (idleNet_fits _) hrf ⟨flat.init, idleNet R (idlePP 𝕜 R)⟩ (idleNet_fits _) hrf
    flat hf hrf gin hn hread hrg (fun h => ⟨(hemb h).1, (hemb h).1, hemb h⟩) Gs hne
    (fun G h => (hG G (by simp [h])).1) mB hmB hms hms
  obtain ⟨ds, e2, -, -, q3, q4⟩ := C85_embedding_predictions g hg lib hl agg hagg maxK down initEdges initRings
    ⟨flat.init, idleNet R (idleLevel 𝕜 R)⟩ (idleNet_fits _) hrf ⟨flat.init, idleNet R (idlePP 𝕜 R)⟩ (idleNet_fits _) hrf
    flat hf hrf gin hn hread hrg (fun h => ⟨(hemb h).1, (hemb h).1, hemb h⟩) Hs hne'
    (fun G h => (hG G (by simp [h])).1) mB hmB hms hms
  refine ⟨cs, ds, e1, e2, fun hlen => ⟨_, p3, q3.trans ?_⟩, fun hlen => ⟨_, p4, q4.trans ?_⟩⟩ <;> rw [ok_inj] <;> symm
  · refine map_alike hsame fun G h H h' hS => ?_
    obtain ⟨ho, hsm⟩ := hG G (by simp [h])
    obtain ⟨ho', hsm'⟩ := hG H (by simp [h'])
    exact flat.flat.net.alike h2 (RGraph.plain ho hsm) (RGraph.plain ho' hsm') (bond_comm G) (bond_comm H)
      ((RGraph.skel ho maxK).upTo (Nat.le_refl 1)) ((RGraph.skel ho' maxK).upTo (Nat.le_refl 1))
      ⟨flat_upTo_one _, flat_upTo_one _⟩
      (agree_onSets hrf initEdges (agree_ring ho ho' hagg) (RGraph.plain ho hsm) (RGraph.plain ho' hsm')
        (RGraph.skel ho maxK) (RGraph.skel ho' maxK))
      (hS.mono fun _ _ _ _ s => s.le hlen) down
  · refine map_alike hsame fun G h H h' hS => ?_
    obtain ⟨ho, hsm⟩ := hG G (by simp [h])
    obtain ⟨ho', hsm'⟩ := hG H (by simp [h'])
    exact gin.alike h2 (RGraph.plain ho hsm) (RGraph.plain ho' hsm') (bond_comm G) (bond_comm H)
      ((RGraph.skel ho maxK).upTo (Nat.le_refl 1)) ((RGraph.skel ho' maxK).upTo (Nat.le_refl 1))
      (agree_onSets hrg initEdges (agree_ring ho ho' hagg) (RGraph.plain ho hsm) (RGraph.plain ho' hsm')
        (RGraph.skel ho maxK) (RGraph.skel ho' maxK))
      (hS.mono fun _ _ _ _ s => s.le hlen)

end

/-! ### Which complexes see more -/

namespace Fixtures

/-- Eight nodes in a ring. -/
def octG : RGraph ℚ Nat where
  size := 8
  x := List.replicate 8 1
  edges := [(0, 1), (1, 0), (1, 2), (2, 1), (2, 3), (3, 2), (3, 4), (4, 3), (4, 5), (5, 4), (5, 6), (6, 5), (6, 7),
    (7, 6), (7, 0), (0, 7)]
  attr := none
  y := none

/-- Two squares. -/
def sqG : RGraph ℚ Nat where
  size := 8
  x := List.replicate 8 1
  edges := [(0, 1), (1, 0), (1, 2), (2, 1), (2, 3), (3, 2), (3, 0), (0, 3), (4, 5), (5, 4), (5, 6), (6, 5), (6, 7),
    (7, 6), (7, 4), (4, 7)]
  attr := none
  y := none

theorem octG_ok : octG.Ok ∧ Simple octG.edges := by
  refine ⟨⟨by decide, rfl, by unfold EdgesIn octG; decide, by unfold NoLoops octG; decide, ?_, ?_⟩, by decide, ?_⟩
  · intro a h; cases h
  · intro a h; cases h
  · have : ∀ e ∈ octG.edges, (e.2, e.1) ∈ octG.edges := by decide
    exact fun u v h => this _ h

theorem sqG_ok : sqG.Ok ∧ Simple sqG.edges := by
  refine ⟨⟨by decide, rfl, by unfold EdgesIn sqG; decide, by unfold NoLoops sqG; decide, ?_, ?_⟩, by decide, ?_⟩
  · intro a h; cases h
  · intro a h; cases h
  · have : ∀ e ∈ sqG.edges, (e.2, e.1) ∈ sqG.edges := by decide
    exact fun u v h => this _ h

theorem octG_alike (n : Nat) : SameNodes octG.bare.data sqG.bare.data n := by
  have h1 : ∀ e ∈ octG.data.edges, e.1 < 8 ∧ e.2 < 8 := by decide
  have h2 : ∀ e ∈ sqG.data.edges, e.1 < 8 ∧ e.2 < 8 := by decide
  have h3 : ∀ c < 8, (octG.data.edges.filter fun p => p.2 == c).length = 2 := by decide
  have h4 : ∀ c < 8, (sqG.data.edges.filter fun p => p.2 == c).length = 2 := by decide
  exact regular_alike (g := octG.data) (h := sqG.data) ⟨h1, List.cons_ne_nil _ _⟩ ⟨h2, List.cons_ne_nil _ _⟩ rfl
    (fun y hy => List.eq_of_mem_replicate (n := 8) hy) (fun y hy => List.eq_of_mem_replicate (n := 8) hy) h3 h4 n

theorem no_triangle {edges : List (Nat × Nat)} (hs : Simple edges)
    (h : ∀ e ∈ edges, ∀ e' ∈ edges, e.2 = e'.1 → (e'.2, e.1) ∉ edges) : ¬ HasTriangle edges := by
  rintro ⟨a, b, c, hab, hbc, hca⟩
  exact h _ (hab.2.elim id (hs.both _ _)) _ (hbc.2.elim id (hs.both _ _)) rfl (hca.2.elim id (hs.both _ _))

theorem octG_no_triangle : ¬ HasTriangle octG.edges := no_triangle octG_ok.2 (by decide)

theorem sqG_no_triangle : ¬ HasTriangle sqG.edges := no_triangle sqG_ok.2 (by decide)

theorem bare_usual {G : RGraph R L} (h : G.Ok ∧ Simple G.edges) : G.bare.Usual :=
  ⟨⟨h.1.pos, h.1.rows, h.1.edges, h.1.labels⟩, h.1.loops, h.2⟩

end Fixtures

open Fixtures in
/-- **C90** SparseCIN on clique complexes with triangles is strictly more powerful than GIN: there are two graphs to
which every GIN gives the same prediction, and a SparseCIN that gives their clique complexes different ones. -/
theorem C90_cliques_see_more_than_gin : ∃ G H : FGraph ℚ Nat, G.Usual ∧ H.Usual ∧
    (∀ (net : GINNet ℚ ℚ), net.readout = "sum" ∨ net.readout = "mean" →
      ∃ p, net.forward (gBatch [G.data]) = .ok [p] ∧ net.forward (gBatch [H.data]) = .ok [p]) ∧
    ∃ cin : SparseNet ℚ (SparseLevel ℚ ℚ), cin.Fits ∧
      ∀ (g : Gudhi) (_ : g.Ok) (agg : List ℚ → ℚ) (_ : ∀ l l' : List ℚ, l.Perm l' → agg l = agg l') (k : Nat)
        (_ : 2 ≤ k) (down : Bool) (mB : Nat) (_ : 2 ≤ mB), ∃ c d p q,
          G.lift g agg k down = .ok c ∧ H.lift g agg k down = .ok d ∧
          (fromComplexList [c] mB >>= cin.forward ℚ SparseLevel.forward) = .ok [p] ∧
          (fromComplexList [d] mB >>= cin.forward ℚ SparseLevel.forward) = .ok [q] ∧ p ≠ q := by
  have h1 : ∀ e ∈ hexG.data.edges, e.1 < 6 ∧ e.2 < 6 := by decide
  have h2 : ∀ e ∈ triG.data.edges, e.1 < 6 ∧ e.2 < 6 := by decide
  refine ⟨hexG.bare, triG.bare, bare_usual hexG_ok, bare_usual triG_ok, ?_, ?_⟩
  · intro net hread
    refine ⟨net.predict hexG.data, net.forward_ok hread (by simp) ?_, ?_⟩
    · intro g hg
      rw [List.mem_singleton.mp hg]
      exact ⟨h1, List.cons_ne_nil _ _⟩
    · rw [(hexG_alike _).predict (Nat.le_refl _)]
      refine net.forward_ok hread (by simp) ?_
      intro g hg
      rw [List.mem_singleton.mp hg]
      exact ⟨h2, List.cons_ne_nil _ _⟩
  · obtain ⟨cin, hfits, -, hc⟩ := C90_counts_cliques (L := Nat) 2
    refine ⟨cin, hfits, ?_⟩
    intro g hg agg hagg k hk down mB hmB
    have one : ∀ G : FGraph ℚ Nat, G.Ok → ∃ c, FGraph.lift g agg k down G = .ok c ∧
        (fromComplexList [c] mB >>= cin.forward ℚ SparseLevel.forward) =
          .ok [(cliqueNumber G.edges G.size 2 : ℚ)] := by
      intro G hG
      obtain ⟨cs, e1, e2⟩ := hc g hg agg hagg k hk down [G] (by simp) (by simpa using hG) mB hmB
      rw [mapE_eq_ok_iff] at e1
      cases e1 with
      | cons h hrest =>
        cases hrest
        exact ⟨_, h, e2⟩
    obtain ⟨c, a1, a2⟩ := one hexG.bare (bare_usual hexG_ok).1
    obtain ⟨d, b1, b2⟩ := one triG.bare (bare_usual triG_ok).1
    refine ⟨c, d, _, _, a1, b1, a2, b2, ?_⟩
    have e1 : cliqueNumber hexG.bare.edges hexG.bare.size 2 = 0 := by decide +kernel
    have e2 : cliqueNumber triG.bare.edges triG.bare.size 2 = 2 := by decide +kernel
    rw [e1, e2]
    norm_num

open Fixtures in
/-- **C90** Rings see what cliques do not: there are two graphs to whose clique complexes of any dimension every
SparseCIN, CIN++ and CIN gives the same predictions, and a SparseCIN that gives their ring complexes, with rings of
four and more, different ones. -/
theorem C90_rings_see_more_than_cliques : ∃ G H : RGraph ℚ Nat,
    (G.Ok ∧ Simple G.edges) ∧ (H.Ok ∧ Simple H.edges) ∧
    (∀ (g : Gudhi) (_ : g.Ok) (agg : List ℚ → ℚ) (_ : ∀ l l' : List ℚ, l.Perm l' → agg l = agg l') (k : Nat)
      (down : Bool) (sparse : SparseNet ℚ (SparseLevel ℚ ℚ)) (_ : sparse.Fits)
      (pp : SparseNet ℚ (PPLevel ℚ ℚ)) (_ : pp.Fits) (cin : CINNet ℚ (CINLevel ℚ ℚ)) (_ : cin.Fits) (mB : Nat)
      (_ : 1 ≤ mB), ∃ c d p q r, G.bare.lift g agg k down = .ok c ∧ H.bare.lift g agg k down = .ok d ∧
        (fromComplexList [c] mB >>= sparse.forward ℚ SparseLevel.forward) = .ok p ∧
        (fromComplexList [d] mB >>= sparse.forward ℚ SparseLevel.forward) = .ok p ∧
        (fromComplexList [c] mB >>= pp.forward ℚ PPLevel.forward) = .ok q ∧
        (fromComplexList [d] mB >>= pp.forward ℚ PPLevel.forward) = .ok q ∧
        (fromComplexList [c] mB >>= cin.forward ℚ CINLevel.forward) = .ok r ∧
        (fromComplexList [d] mB >>= cin.forward ℚ CINLevel.forward) = .ok r) ∧
    ∃ cin : SparseNet ℚ (SparseLevel ℚ ℚ), cin.Fits ∧
      ∀ (g : Gudhi) (_ : g.Ok) (lib : RingLib) (_ : lib.Ok) (agg : List ℚ → ℚ) (maxK : Nat) (_ : 4 ≤ maxK)
        (down : Bool) (mB : Nat) (_ : 2 ≤ mB), ∃ c d p q,
          G.lift g lib agg maxK down true true = .ok c ∧ H.lift g lib agg maxK down true true = .ok d ∧
          (fromComplexList [c] mB >>= cin.forward ℚ SparseLevel.forward) = .ok [p] ∧
          (fromComplexList [d] mB >>= cin.forward ℚ SparseLevel.forward) = .ok [q] ∧ p ≠ q := by
  refine ⟨octG, sqG, octG_ok, sqG_ok, ?_, ?_⟩
  · intro g hg agg hagg k down sparse hs pp hp cin hc mB hmB
    obtain ⟨cs, ds, p, q, r, e1, e2, rest⟩ := C90_without_triangles (L := Nat) (by norm_num) g hg agg hagg k down sparse
      hs pp hp cin hc [octG.bare] [sqG.bare] (by simp)
      (by simpa using ⟨bare_usual octG_ok, bare_usual sqG_ok⟩) mB hmB
      (.inr (.inr (by simpa using ⟨octG_no_triangle, sqG_no_triangle⟩))) (.cons (octG_alike _) .nil)
    rw [mapE_eq_ok_iff] at e1 e2
    cases e1 with
    | cons h1 hrest =>
      cases hrest
      cases e2 with
      | cons h2 hrest =>
        cases hrest
        exact ⟨_, _, p, q, r, h1, h2, rest⟩
  · obtain ⟨cin, hfits, -, hc⟩ := C68_cin_counts_rings (L := Nat) 4 (by omega)
    refine ⟨cin, hfits, ?_⟩
    intro g hg lib hl agg maxK hk down mB hmB
    have one : ∀ G : RGraph ℚ Nat, G.Ok ∧ Simple G.edges → ∃ c p n, RGraph.lift g lib agg maxK down true true G = .ok c ∧
        (fromComplexList [c] mB >>= cin.forward ℚ SparseLevel.forward) = .ok [p] ∧ RingCount G.edges 4 n ∧
        p = (n : ℚ) := by
      intro G hG
      obtain ⟨cs, preds, e1, e2, e3⟩ := hc g hg lib hl agg maxK hk down [G] (by simp) (by simpa using hG) mB hmB
      cases e3 with
      | cons hp hrest =>
        cases hrest
        obtain ⟨n, hn, rfl⟩ := hp
        rw [mapE_eq_ok_iff] at e1
        cases e1 with
        | cons h hrest =>
          cases hrest
          exact ⟨_, _, n, h, e2, hn, rfl⟩
    obtain ⟨c, p, n, a1, a2, a3, rfl⟩ := one octG octG_ok
    obtain ⟨d, q, m, b1, b2, b3, rfl⟩ := one sqG sqG_ok
    refine ⟨c, d, _, _, a1, b1, a2, b2, ?_⟩
    have e1 : ((getRings plainRings octG.edges 4).filter fun r => r.length == 4).length = 0 := by decide +kernel
    have e2 : ((getRings plainRings sqG.edges 4).filter fun r => r.length == 4).length = 2 := by decide +kernel
    rw [ringCount_unique a3 (e1 ▸ ringCount_rings plainRings_ok octG.edges (by omega) (Nat.le_refl 4)),
      ringCount_unique b3 (e2 ▸ ringCount_rings plainRings_ok sqG.edges (by omega) (Nat.le_refl 4))]
    norm_num

/-! ### Examples -/

section Examples
open Fixtures

/-- A relation that respects features and bonds and pairs off neighbours relates nodes of the same colour. -/
theorem sameAtom_of_bisim {A : Type} {g h : GData R} {b b' : Nat → Nat → A} {rel : Nat → Nat → Prop}
    (h0 : ∀ c e, rel c e → ∃ x, g.x[c]? = some x ∧ h.x[e]? = some x)
    (h1 : ∀ c e, rel c e → Matched (fun p q => rel p.1 q.1 ∧ b p.2 p.1 = b' q.2 q.1)
      (g.edges.filter fun p => p.2 == c) (h.edges.filter fun q => q.2 == e)) :
    ∀ n c e, rel c e → SameAtom g h b b' n c e
  | 0, c, e, hr => h0 c e hr
  | n + 1, c, e, hr => ⟨sameAtom_of_bisim h0 h1 n c e hr,
      (h1 c e hr).mono fun p _ q _ hpq => ⟨sameAtom_of_bisim h0 h1 n p.1 q.1 hpq.1, hpq.2⟩⟩

namespace Fixtures

/-- The octagon with single and double bonds in turn. -/
def octB : RGraph ℚ Nat := { octG with attr := some [1, 1, 2, 2, 1, 1, 2, 2, 1, 1, 2, 2, 1, 1, 2, 2] }

/-- The squares with single and double bonds in turn. -/
def sqB : RGraph ℚ Nat := { sqG with attr := some [1, 1, 2, 2, 1, 1, 2, 2, 1, 1, 2, 2, 1, 1, 2, 2] }

theorem agree_check {edges : List (Nat × Nat)} {a : List R} (hl : a.length = edges.length)
    (h : ∀ p ∈ edges.zip a, ∀ q ∈ edges.zip a, (p.1 = q.1 ∨ p.1 = q.1.swap) → p.2 = q.2) : Agree edges a := by
  intro i j e e' hi hj hee
  have hi' := lt_of_get hi
  have hj' := lt_of_get hj
  rw [List.getElem?_eq_getElem (by omega), List.getElem?_eq_getElem (by omega), Option.some_inj]
  refine h (e, a[i]) ?_ (e', a[j]) ?_ hee
  · rw [List.mem_iff_getElem?]
    exact ⟨i, by rw [List.getElem?_zip_eq_some]; exact ⟨hi, List.getElem?_eq_getElem _⟩⟩
  · rw [List.mem_iff_getElem?]
    exact ⟨j, by rw [List.getElem?_zip_eq_some]; exact ⟨hj, List.getElem?_eq_getElem _⟩⟩

theorem octB_ok : octB.Ok ∧ Simple octB.edges := by
  refine ⟨⟨by decide, rfl, octG_ok.1.edges, octG_ok.1.loops, ?_, ?_⟩, octG_ok.2⟩
  · intro a h
    cases h
    exact ⟨rfl, agree_check rfl (by decide +kernel)⟩
  · intro a h; cases h

theorem sqB_ok : sqB.Ok ∧ Simple sqB.edges := by
  refine ⟨⟨by decide, rfl, sqG_ok.1.edges, sqG_ok.1.loops, ?_, ?_⟩, sqG_ok.2⟩
  · intro a h
    cases h
    exact ⟨rfl, agree_check rfl (by decide +kernel)⟩
  · intro a h; cases h

theorem octB_alike (n : Nat) : SameAtoms octB.data sqB.data octB.bond sqB.bond n := by
  have hall : ∀ c < 8, ∀ e < 8, ((octB.edges.filter fun p => p.2 == c).map fun p => octB.bond p.2 p.1).Perm
      ((sqB.edges.filter fun q => q.2 == e).map fun q => sqB.bond q.2 q.1) := by decide +kernel
  have h1 : ∀ e ∈ octB.edges, e.1 < 8 := by decide
  have h2 : ∀ e ∈ sqB.edges, e.1 < 8 := by decide
  have h3 : ∀ c < 8, octB.x[c]? = some 1 ∧ sqB.x[c]? = some 1 := by decide +kernel
  refine ⟨List.range 8, .refl _, List.forall₂_iff_get.mpr ⟨rfl, fun i hi _ => ?_⟩⟩
  refine sameAtom_of_bisim (rel := fun c e => c < 8 ∧ e < 8) (fun c e h => ⟨1, (h3 c h.1).1, (h3 e h.2).2⟩)
    (fun c e h => (matched_of_map_perm (hall c h.1 e h.2)).mono fun p hp q hq hpq =>
      ⟨⟨h1 p (List.mem_of_mem_filter hp), h2 q (List.mem_of_mem_filter hq)⟩, hpq⟩) n _ _ ?_
  have : i < 8 := hi
  simpa using this

theorem ring_triangle {edges : List (Nat × Nat)} {r : List Nat} (hr : IsRing edges r) (h : r.length ≤ 3) :
    HasTriangle edges := by
  obtain ⟨a, b, c, rfl⟩ := List.length_eq_three.mp (Nat.le_antisymm h hr.long)
  exact ⟨a, b, c, (hr.joined 0 1 a b rfl rfl).mpr (.inl (.inl rfl)), (hr.joined 1 2 b c rfl rfl).mpr (.inl (.inl rfl)),
    (hr.joined 2 0 c a rfl rfl).mpr (.inl (.inr ⟨rfl, rfl⟩))⟩

end Fixtures

/-- Two graphs that the test does not tell apart, whose bonds differ from each other, and that have rings. -/
example : octB.bond 0 1 = some 1 ∧ octB.bond 1 2 = some 2 ∧ SameAtoms octB.data sqB.data octB.bond sqB.bond 3 ∧
    getRings plainRings sqB.edges 4 ≠ [] := ⟨by decide +kernel, by decide +kernel, octB_alike 3, by decide +kernel⟩

/-- Bonds matter: with double bonds only the squares are told apart from the octagon. -/
example : ¬ SameAtoms octB.data sqB.data octB.bond (fun _ _ => some 2) 1 := by
  rintro ⟨m, -, h⟩
  have h0 := (List.forall₂_iff_get.mp h).2 0 (by decide) (by rw [← h.length_eq]; decide)
  obtain ⟨-, m', -, h1⟩ := h0
  have e : (octB.data.edges.filter fun p => p.2 == (List.range octB.data.x.length).get ⟨0, by decide⟩) =
    [(1, 0), (7, 0)] := by decide
  rw [e] at h1
  cases h1 with
  | cons h _ =>
    have h3 : octB.bond 0 1 = some 2 := h.2
    exact absurd h3 (by decide +kernel)

example := C90_clique_simulates_gin (L := Nat) jkQ (.inr rfl)
/-- Four cliques of three nodes and one of four among four nodes joined to each other. -/
example : cliqueNumber [(0, 1), (1, 0), (0, 2), (2, 0), (1, 2), (2, 1), (0, 3), (3, 0), (1, 3), (3, 1), (2, 3), (3, 2)] 5 2 = 4 ∧
    cliqueNumber [(0, 1), (1, 0), (0, 2), (2, 0), (1, 2), (2, 1), (0, 3), (3, 0), (1, 3), (3, 1), (2, 3), (3, 2)] 5 3 =
      1 := by decide +kernel

/-- The network counts the triangles of the two triangles and of the hexagon. -/
example : ∃ (cin : SparseNet ℚ (SparseLevel ℚ ℚ)) (cs : List (Complex ℚ Nat)),
    mapE (FGraph.lift plainGudhi List.sum 3 true) [triG.bare, hexG.bare] = .ok cs ∧
    (fromComplexList cs 2 >>= cin.forward ℚ SparseLevel.forward) = .ok [2, 0] := by
  obtain ⟨cin, -, -, h⟩ := C90_counts_cliques (L := Nat) 2
  obtain ⟨cs, e1, e2⟩ := h plainGudhi plainGudhi_ok List.sum (fun _ _ h => h.sum_eq) 3 (by omega) true
    [triG.bare, hexG.bare] (by simp) (by simpa using ⟨(bare_usual triG_ok).1, (bare_usual hexG_ok).1⟩) 2 (by omega)
  refine ⟨cin, cs, e1, e2.trans ?_⟩
  have t : cliqueNumber triG.bare.edges triG.bare.size 2 = 2 := by decide +kernel
  have h : cliqueNumber hexG.bare.edges hexG.bare.size 2 = 0 := by decide +kernel
  simp [t, h]

example := C90_without_triangles (L := Nat) (by norm_num) plainGudhi plainGudhi_ok List.sum (fun _ _ h => h.sum_eq) 3 true
  sparseNetQ sparseNetQ_fits ppNetQ ppNetQ_fits cinNetQ cinNetQ_fits [octG.bare] [sqG.bare] (by simp)
  (by simpa using ⟨bare_usual octG_ok, bare_usual sqG_ok⟩) 2 (by omega)
  (.inr (.inr (by simpa using ⟨octG_no_triangle, sqG_no_triangle⟩))) (.cons (octG_alike _) .nil)

/-- With rings of three at most. -/
example := C90_without_rings (by norm_num) plainGudhi plainGudhi_ok plainRings plainRings_ok List.sum
  (fun _ _ h => h.sum_eq) 3 true sparseNetQ sparseNetQ_fits ppNetQ ppNetQ_fits cinNetQ cinNetQ_fits [octB] [sqB]
  (by simp) (by simpa using ⟨octB_ok, sqB_ok⟩) 2 (by omega)
  (.inr fun G hG r hr => Nat.lt_of_not_ge fun hle => by
    have ht := ring_triangle hr hle
    simp only [List.cons_append, List.nil_append, List.mem_cons, List.not_mem_nil, or_false] at hG
    rcases hG with rfl | rfl
    · exact octG_no_triangle ht
    · exact sqG_no_triangle ht)
  (.cons (octB_alike _) .nil)

/-- With the rings there. -/
example := C90_networks_without_rings (by norm_num) plainGudhi plainGudhi_ok plainRings plainRings_ok List.sum
  (fun _ _ h => h.sum_eq) 8 true true false flatQ
  ⟨by simp [EmbedNet.flat, flatQ, sparseNetQ], by simp [EmbedNet.flat, flatQ, sparseNetQ], rfl, .inr rfl, .inl rfl,
      by decide⟩ (fun _ _ h => h.sum_eq) ginQ (by simp [ginQ]) (.inl rfl) (fun _ _ h => h.sum_eq)
  (fun _ => ⟨rfl, rfl⟩) [octB] [sqB] (by simp) (by simpa using ⟨octB_ok, sqB_ok⟩) 2 (by omega) 3
  (.cons (octB_alike 3) .nil)

end Examples

end Verif
