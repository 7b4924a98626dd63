import Verif.FixturesRing
import Verif.Lemmas.RingIso
import Verif.Props.EmbedBatch
import Verif.Props.Lifting

/-!
# C64: ring-lifted isomorphic graphs get the same predictions
-/

namespace Verif

variable {𝕜 R L : Type} [Field 𝕜] [AddCommGroup R] [Module 𝕜 R]

/-! ### Facts about ring complexes -/

section
variable {initEdges initRings : Bool}

theorem RingFacts.takes {comp : Complex R L} (h : RingFacts comp initEdges initRings) {l : EmbedInit R}
    (hl : initEdges = true → l.eEmbed.isSome) : l.Takes comp where
  valid := h.valid
  small := h.small
  cells := h.cells
  nodes := h.nodes
  vertices := h.vertices
  faces := h.faces
  edges := fun he => by
    rw [h.edges, Bool.and_eq_true] at he
    exact hl he.1

theorem uniform_of_facts {cs : List (Complex R L)} (h : ∀ c ∈ cs, RingFacts c initEdges initRings) :
    UniformFeatures cs := by
  intro d
  match d with
  | 0 => exact .inl fun c hc _ => (h c hc).nodes
  | 1 =>
    cases initEdges with
    | true => exact .inl fun c hc hd => by rw [(h c hc).edges]; simpa using hd
    | false =>
      refine .inr fun c hc => ?_
      have := (h c hc).edges
      simpa using this
  | 2 =>
    cases initRings with
    | true => exact .inl fun c hc hd => by rw [(h c hc).rings]; simpa using hd
    | false =>
      refine .inr fun c hc => ?_
      have := (h c hc).rings
      simpa using this
  | d + 3 => exact .inl fun c hc hd => absurd (h c hc).small (by omega)

omit [AddCommGroup R] in
theorem RingFacts.ready {comp : Complex R L} (h : RingFacts comp true true) : comp.Ready := by
  refine ⟨h.valid, ?_, h.vertices⟩
  intro c hc
  obtain ⟨d, hd⟩ := List.mem_iff_getElem?.mp hc
  have hlt : d < comp.dimension + 1 := by
    rw [← h.valid.len]; exact lt_of_get hd
  have hx : comp.attr d Cochain.x = c.x := by
    unfold Complex.attr
    rw [hd]
    rfl
  have hs := h.small
  have h012 : d = 0 ∨ d = 1 ∨ d = 2 := by omega
  rcases h012 with rfl | rfl | rfl
  · have := h.nodes; rwa [hx] at this
  · have := h.edges; rw [hx] at this; rw [this]; simp; omega
  · have := h.rings; rw [hx] at this; rw [this]; simp; omega

theorem relabels_of_cells {c c' : Complex R L} (hc : c.Ready) (hc' : c'.Ready) {φ : Nat → Nat → Nat}
    (h : RelabelsCells c c' φ) : Relabels c.view c'.view φ where
  size d := by rw [ready_X_length hc, ready_X_length hc', h.size]
  inj d a b ha hb := by
    rw [ready_X_length hc] at ha hb
    exact h.inj d a b ha hb
  feat d a ha := by
    rw [ready_X_length hc] at ha
    exact h.feat d a ha
  up := h.up
  down := h.down
  bnd := h.bnd

end

section
variable [DecidableEq R] {g g' : Gudhi} {lib lib' : RingLib} {agg : List R → R} {maxK : Nat}
  {down initEdges initRings : Bool}

theorem ring_batches (hg : g.Ok) (hg' : g'.Ok) (hl : lib.Ok) (hl' : lib'.Ok) (hagg : ∀ l l' : List R, l.Perm l' → agg l = agg l')
    {Gs Hs : List (RGraph R L)} (hG : ∀ G ∈ Gs, G.Ok) (hH : ∀ H ∈ Hs, H.Ok)
    (hiso : List.Forall₂ RGraph.Iso Gs Hs) :
    ∃ cs cs' : List (Complex R L), mapE (RGraph.lift g lib agg maxK down initEdges initRings) Gs = .ok cs ∧
      mapE (RGraph.lift g' lib' agg maxK down initEdges initRings) Hs = .ok cs' ∧
      RenumberedCells cs cs' ∧ (∀ c ∈ cs, RingFacts c initEdges initRings) ∧
      (∀ c ∈ cs', RingFacts c initEdges initRings) ∧ cs.length = Gs.length := by
  induction hiso with
  | nil => exact ⟨[], [], rfl, rfl, .nil, by simp, by simp, rfl⟩
  | @cons G H Gs Hs hi _ ih =>
    obtain ⟨cs, cs', h1, h2, h3, h4, h5, h6⟩ := ih (fun G' h' => hG G' (by simp [h']))
      (fun H' h' => hH H' (by simp [h']))
    obtain ⟨c, c', e1, e2, r1, r2, hφ⟩ := ring_relabels (maxK := maxK) (down := down)
      (initEdges := initEdges) (initRings := initRings) hg hg' hl hl' hagg (hG G (by simp)) (hH H (by simp)) hi
    refine ⟨c :: cs, c' :: cs', ?_, ?_, .cons hφ h3, ?_, ?_, by simp [h6]⟩
    · rw [mapE_eq_ok_iff] at h1 ⊢
      exact .cons e1 h1
    · rw [mapE_eq_ok_iff] at h2 ⊢
      exact .cons e2 h2
    · simpa using ⟨r1, h4⟩
    · simpa using ⟨r2, h5⟩

/-- **C64** Pairwise isomorphic graphs are lifted to ring complexes that are renumberings of each other: a numbering of the
cells of one by those of the other keeps adjacencies, boundaries and features, whatever the numbering of the nodes, the
columns of the edge index, and the order in which the simplex tree and the cycle search report what they find. -/
theorem C64_isomorphic_graphs_renumbered_complexes (hg : g.Ok) (hg' : g'.Ok) (hl : lib.Ok) (hl' : lib'.Ok)
    (hagg : ∀ l l' : List R, l.Perm l' → agg l = agg l')
    (Gs Hs : List (RGraph R L)) (hG : ∀ G ∈ Gs, G.Ok) (hH : ∀ H ∈ Hs, H.Ok)
    (hiso : List.Forall₂ RGraph.Iso Gs Hs) :
    ∃ cs cs' : List (Complex R L), mapE (RGraph.lift g lib agg maxK down initEdges initRings) Gs = .ok cs ∧
      mapE (RGraph.lift g' lib' agg maxK down initEdges initRings) Hs = .ok cs' ∧ RenumberedCells cs cs' := by
  obtain ⟨cs, cs', h1, h2, h3, -⟩ := ring_batches (maxK := maxK) (down := down) (initEdges := initEdges)
    (initRings := initRings) hg hg' hl hl' hagg hG hH hiso
  exact ⟨cs, cs', h1, h2, h3⟩

/-- **C64** Two batches of pairwise isomorphic graphs, lifted to ring complexes, get the same
predictions from EmbedSparseCIN, EmbedCINpp, EmbedSparseCINNoRings and EmbedGIN, whatever the numbering
of the nodes, the order and direction of the edges, and the order in which the simplex tree and the cycle
search report what they find. -/
theorem C64_isomorphic_graphs_same_embedding_prediction (hg : g.Ok) (hg' : g'.Ok) (hl : lib.Ok) (hl' : lib'.Ok)
    (hagg : ∀ l l' : List R, l.Perm l' → agg l = agg l')
    (sparse : EmbedNet R (SparseLevel 𝕜 R)) (hs : sparse.net.Fits)
    (hrs : ∀ l l' : List R, l.Perm l' → sparse.init.reduce l = sparse.init.reduce l')
    (pp : EmbedNet R (PPLevel 𝕜 R)) (hp : pp.net.Fits)
    (hrp : ∀ l l' : List R, l.Perm l' → pp.init.reduce l = pp.init.reduce l')
    (flat : EmbedNet R (SparseLevel 𝕜 R)) (hf : flat.flat.net.Fits)
    (hrf : ∀ l l' : List R, l.Perm l' → flat.init.reduce l = flat.init.reduce l')
    (gin : EmbedGIN 𝕜 R) (hn : gin.convs ≠ []) (hread : gin.readout = "sum" ∨ gin.readout = "mean")
    (hrg : ∀ l l' : List R, l.Perm l' → gin.init.reduce l = gin.init.reduce l')
    (hemb : initEdges = true → sparse.init.eEmbed.isSome ∧ pp.init.eEmbed.isSome ∧
      flat.init.eEmbed.isSome ∧ gin.init.eEmbed.isSome)
    (Gs Hs : List (RGraph R L)) (hne : Gs ≠ []) (hG : ∀ G ∈ Gs, G.Ok) (hH : ∀ H ∈ Hs, H.Ok)
    (hiso : List.Forall₂ RGraph.Iso Gs Hs) (mB : Nat) (h1 : 1 ≤ mB)
    (hms : min 2 mB ≤ sparse.net.maxDim) (hmp : min 2 mB ≤ pp.net.maxDim) :
    ∃ cs cs', mapE (RGraph.lift g lib agg maxK down initEdges initRings) Gs = .ok cs ∧
      mapE (RGraph.lift g' lib' agg maxK down initEdges initRings) Hs = .ok cs' ∧
      (∃ preds, preds.length = Gs.length ∧
        (fromComplexList cs mB >>= sparse.forward 𝕜 SparseLevel.forward) = .ok preds ∧
        (fromComplexList cs' mB >>= sparse.forward 𝕜 SparseLevel.forward) = .ok preds) ∧
      (∃ preds, preds.length = Gs.length ∧
        (fromComplexList cs mB >>= pp.forward 𝕜 PPLevel.forward) = .ok preds ∧
        (fromComplexList cs' mB >>= pp.forward 𝕜 PPLevel.forward) = .ok preds) ∧
      (∃ preds, preds.length = Gs.length ∧
        (fromComplexList cs mB >>= flat.forwardNoRings 𝕜 SparseLevel.forward) = .ok preds ∧
        (fromComplexList cs' mB >>= flat.forwardNoRings 𝕜 SparseLevel.forward) = .ok preds) ∧
      (∃ preds, preds.length = Gs.length ∧ (fromComplexList cs mB >>= gin.forward) = .ok preds ∧
        (fromComplexList cs' mB >>= gin.forward) = .ok preds) := by
  obtain ⟨cs, cs', e1, e2, hφ, f1, f2, hlen⟩ := ring_batches (maxK := maxK) (down := down)
    (initEdges := initEdges) (initRings := initRings) hg hg' hl hl' hagg hG hH hiso
  have hne' : cs ≠ [] := by
    intro e
    rw [e] at hlen
    exact hne (List.length_eq_zero_iff.mp hlen.symm)
  have hall : ∀ c ∈ cs ++ cs', RingFacts c initEdges initRings := by
    intro c hc
    rcases List.mem_append.mp hc with hc | hc
    · exact f1 c hc
    · exact f2 c hc
  have hmin : ∀ {m : Nat}, min 2 mB ≤ m → ∀ c ∈ cs ++ cs', min c.dimension mB ≤ m := by
    intro m hm c hc
    have := (hall c hc).small
    omega
  have u1 := uniform_of_facts f1
  have u2 := uniform_of_facts f2
  have tk : ∀ {l : EmbedInit R}, (initEdges = true → l.eEmbed.isSome) → ∀ c ∈ cs ++ cs', l.Takes c :=
    fun h c hc => (hall c hc).takes h
  have t1 := tk fun h => (hemb h).1
  have t2 := tk fun h => (hemb h).2.1
  have t3 := tk fun h => (hemb h).2.2.1
  have t4 := tk fun h => (hemb h).2.2.2
  have L : ∀ c ∈ cs, c ∈ cs ++ cs' := fun c hc => by simp [hc]
  have R' : ∀ c ∈ cs', c ∈ cs ++ cs' := fun c hc => by simp [hc]
  have hspec := C63_predictions_meet_the_specification sparse hs hrs pp hp hrp flat hf hrf cs hne'
    (fun c hc => t1 c (L c hc)) (fun c hc => t2 c (L c hc)) (fun c hc => t3 c (L c hc)) u1 mB
    (fun c hc => hmin hms c (L c hc)) (fun c hc => hmin hmp c (L c hc)) h1
  obtain ⟨⟨p1, a1, b1⟩, ⟨p2, a2, b2⟩, p3, a3, b3⟩ := C63_predictions_do_not_depend_on_numbering sparse hs hrs
    pp hp hrp flat hf hrf cs cs' hne' hφ t1 t2 t3 u1 u2 mB (hmin hms) (hmin hmp) h1
  obtain ⟨g1, -, g3⟩ := C63_embed_gin_predictions gin hn hread hrg cs hne' (fun c hc => t4 c (L c hc)) u1 mB h1
  refine ⟨cs, cs', e1, e2, ⟨p1, ?_, a1, b1⟩, ⟨p2, ?_, a2, b2⟩, ⟨p3, ?_, a3, b3⟩, ⟨_, ?_, g1, ?_⟩⟩
  · rw [← (ok_inj.mp (hspec.1.symm.trans a1)), List.length_map, hlen]
  · rw [← (ok_inj.mp (hspec.2.1.symm.trans a2)), List.length_map, hlen]
  · rw [← (ok_inj.mp (hspec.2.2.symm.trans a3)), List.length_map, hlen]
  · rw [List.length_map, hlen]
  · rw [g3 cs' hφ (fun c hc => t4 c (R' c hc)) u2, g1]

/-- **C64** The same for SparseCIN, CIN++ and CIN when the lifting makes features for edges and rings. -/
theorem C64_isomorphic_graphs_same_prediction (hg : g.Ok) (hg' : g'.Ok) (hl : lib.Ok) (hl' : lib'.Ok)
    (hagg : ∀ l l' : List R, l.Perm l' → agg l = agg l')
    (sparse : SparseNet R (SparseLevel 𝕜 R)) (hs : sparse.Fits)
    (pp : SparseNet R (PPLevel 𝕜 R)) (hp : pp.Fits) (cin : CINNet R (CINLevel 𝕜 R)) (hc : cin.Fits)
    (Gs Hs : List (RGraph R L)) (hne : Gs ≠ []) (hG : ∀ G ∈ Gs, G.Ok) (hH : ∀ H ∈ Hs, H.Ok)
    (hiso : List.Forall₂ RGraph.Iso Gs Hs) (mB : Nat) :
    ∃ cs cs', mapE (RGraph.lift g lib agg maxK down true true) Gs = .ok cs ∧
      mapE (RGraph.lift g' lib' agg maxK down true true) Hs = .ok cs' ∧ cs.length = Gs.length ∧
      (∃ preds, (fromComplexList cs mB >>= sparse.forward 𝕜 SparseLevel.forward) = .ok preds ∧
        (fromComplexList cs' mB >>= sparse.forward 𝕜 SparseLevel.forward) = .ok preds) ∧
      (∃ preds, (fromComplexList cs mB >>= pp.forward 𝕜 PPLevel.forward) = .ok preds ∧
        (fromComplexList cs' mB >>= pp.forward 𝕜 PPLevel.forward) = .ok preds) ∧
      (∃ preds, (fromComplexList cs mB >>= cin.forward 𝕜 CINLevel.forward) = .ok preds ∧
        (fromComplexList cs' mB >>= cin.forward 𝕜 CINLevel.forward) = .ok preds) := by
  obtain ⟨cs, cs', e1, e2, hφ, f1, f2, hlen⟩ := ring_batches (maxK := maxK) (down := down)
    (initEdges := true) (initRings := true) hg hg' hl hl' hagg hG hH hiso
  have hne' : cs ≠ [] := by
    intro e
    rw [e] at hlen
    exact hne (List.length_eq_zero_iff.mp hlen.symm)
  have hren : RenumberedBatch cs cs' := by
    clear e1 e2 hlen hne'
    induction hφ with
    | nil => exact .nil
    | @cons a b l l' hab _ ih =>
      obtain ⟨φ, hφ⟩ := hab
      exact .cons ⟨φ, relabels_of_cells (f1 a (by simp)).ready (f2 b (by simp)).ready hφ⟩
        (ih (fun c hc => f1 c (by simp [hc])) fun c hc => f2 c (by simp [hc]))
  exact ⟨cs, cs', e1, e2, hlen, C17_predictions_do_not_depend_on_numbering sparse hs pp hp cin hc cs cs' hne'
    hren (fun c hc => (f1 c hc).ready) (fun c hc => (f2 c hc).ready)
    (fun c hc => (f1 c hc).cells 0 (Nat.zero_le _)) mB⟩

end

/-! ### Examples -/

section Examples
open Fixtures

/-- A cycle search that reports the rings in the opposite order. -/
def backRings : RingLib := { plainRings with order := List.reverse }

theorem backRings_ok : backRings.Ok := ⟨plainRings_ok.isos, fun l => l.reverse_perm⟩

/-- The shed with features on nodes and edges. -/
def shedG : RGraph ℚ Nat :=
  ⟨5, [1, 2, 3, 4, 5], shed, some [10, 10, 12, 12, 23, 23, 30, 30, 24, 24, 34, 34], some [1]⟩

/-- The same graph with node `v` called `4 - v`, the edges in another order and in one direction only. -/
def shedH : RGraph ℚ Nat :=
  ⟨5, [5, 4, 3, 2, 1], [(1, 0), (2, 0), (1, 4), (2, 1), (3, 2), (4, 3)], some [34, 24, 30, 23, 12, 10],
    some [1]⟩

theorem shedG_ok : shedG.Ok := by
  refine ⟨by decide, rfl, shed_in, shed_noLoops, ?_, ?_⟩
  · intro a h
    cases h
    refine ⟨rfl, ?_⟩
    have h : ∀ i ∈ List.range 12, ∀ j ∈ List.range 12,
        (shed.getD i (0, 0) = shed.getD j (0, 0) ∨ shed.getD i (0, 0) = (shed.getD j (0, 0)).swap) →
        ([10, 10, 12, 12, 23, 23, 30, 30, 24, 24, 34, 34] : List ℚ)[i]? =
          ([10, 10, 12, 12, 23, 23, 30, 30, 24, 24, 34, 34] : List ℚ)[j]? := by decide +kernel
    intro i j e e' hi hj hee
    have hi' : i < 12 := lt_of_get hi
    have hj' : j < 12 := lt_of_get hj
    refine h i (List.mem_range.mpr hi') j (List.mem_range.mpr hj') ?_
    rw [List.getD_eq_getElem?_getD, List.getD_eq_getElem?_getD]
    have hi : shed[i]? = some e := hi
    have hj : shed[j]? = some e' := hj
    rw [hi, hj]
    exact hee
  · intro l h; cases h; exact .inl rfl

theorem shedH_ok : shedH.Ok := by
  refine ⟨by decide, rfl, by unfold EdgesIn shedH; decide, by unfold NoLoops shedH; decide, ?_, ?_⟩
  · intro a h
    cases h
    refine ⟨rfl, ?_⟩
    have h : ∀ i ∈ List.range 6, ∀ j ∈ List.range 6,
        (shedH.edges.getD i (0, 0) = shedH.edges.getD j (0, 0) ∨
          shedH.edges.getD i (0, 0) = (shedH.edges.getD j (0, 0)).swap) → i = j := by decide +kernel
    intro i j e e' hi hj hee
    have hi' : i < 6 := lt_of_get hi
    have hj' : j < 6 := lt_of_get hj
    rw [h i (List.mem_range.mpr hi') j (List.mem_range.mpr hj') ?_]
    rw [List.getD_eq_getElem?_getD, List.getD_eq_getElem?_getD, hi, hj]
    exact hee
  · intro l h; cases h; exact .inl rfl

theorem shed_iso : shedG.Iso shedH := by
  refine ⟨rfl, rfl, fun v => 4 - v, ⟨?_, ?_, ?_, ?_⟩, ?_⟩
  · intro v _; show 4 - v < 5; omega
  · intro u v hu hv h
    have hu : u < 5 := hu
    have hv : v < 5 := hv
    omega
  · have h : ∀ u < 5, ∀ v < 5, (Joined shedH.edges (4 - u) (4 - v) ↔ Joined shedG.edges u v) := by
      decide +kernel
    exact fun u v hu hv => h u hu v hv
  · have h : ∀ v < 5, shedH.x[4 - v]? = shedG.x[v]? := by decide +kernel
    exact h
  · intro a a' h h' i j e e' hi hj hee
    cases h
    cases h'
    have key : ∀ i ∈ List.range 12, ∀ j ∈ List.range 6,
        (shedH.edges.getD j (0, 0) = (4 - (shedG.edges.getD i (0, 0)).1, 4 - (shedG.edges.getD i (0, 0)).2) ∨
          shedH.edges.getD j (0, 0) =
            (4 - (shedG.edges.getD i (0, 0)).2, 4 - (shedG.edges.getD i (0, 0)).1)) →
        ([34, 24, 30, 23, 12, 10] : List ℚ)[j]? =
          ([10, 10, 12, 12, 23, 23, 30, 30, 24, 24, 34, 34] : List ℚ)[i]? := by decide +kernel
    have hi' : i < 12 := lt_of_get hi
    have hj' : j < 6 := lt_of_get hj
    refine key i (List.mem_range.mpr hi') j (List.mem_range.mpr hj') ?_
    rw [List.getD_eq_getElem?_getD, List.getD_eq_getElem?_getD, hi, hj]
    exact hee

/-- The hypotheses of both theorems are met by the shed and its renumbering, with two searches that report
rings in different orders. -/
example : plainGudhi.Ok ∧ plainRings.Ok ∧ backRings.Ok ∧ (∀ G ∈ [shedG], G.Ok) ∧ (∀ H ∈ [shedH], H.Ok) ∧
    List.Forall₂ RGraph.Iso [shedG] [shedH] ∧ noRingsQ.init.eEmbed.isSome ∧ noRingsQ.net.Fits ∧
    min 2 2 ≤ noRingsQ.net.maxDim :=
  ⟨plainGudhi_ok, plainRings_ok, backRings_ok, by simpa using shedG_ok, by simpa using shedH_ok,
    .cons shed_iso .nil, rfl, sparseNetQ_fits, by decide⟩

/-- The lifted complexes differ, the predictions do not. -/
example :
    ((shedG.lift plainGudhi plainRings List.sum 4 true true false).toOption.map fun c =>
      (c.attr 2 Cochain.boundaryIndex, c.attr 1 Cochain.x)) =
      some (some [(2, 0), (1, 0), (0, 0), (5, 1), (4, 1), (3, 1), (2, 1)], some [34, 24, 23, 12, 30, 10]) ∧
    ((shedH.lift plainGudhi backRings List.sum 4 true true false).toOption.map fun c =>
      (c.attr 2 Cochain.boundaryIndex, c.attr 1 Cochain.x)) =
      some (some [(3, 0), (2, 0), (1, 0), (0, 0), (5, 1), (4, 1), (3, 1)], some [10, 12, 30, 23, 24, 34]) ∧
    (do let c ← shedG.lift plainGudhi plainRings List.sum 4 true true false
        fromComplexList [c] 2 >>= noRingsQ.forward ℚ SparseLevel.forward) =
      (do let c ← shedH.lift plainGudhi backRings List.sum 4 true true false
          fromComplexList [c] 2 >>= noRingsQ.forward ℚ SparseLevel.forward) := by
  refine ⟨?_, ?_, ?_⟩ <;> decide +kernel

end Examples

end Verif
