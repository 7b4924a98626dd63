import Verif.Lemmas.CellNetLift
import Verif.Props.RingIso

/-!
# C85: what the networks compute for a graph
-/

namespace Verif

variable {𝕜 R L : Type} [Field 𝕜] [AddCommGroup R] [Module 𝕜 R]

/-! ### The cells a cell exchanges messages with -/

/-- **C85** The cells of a ring complex and how they touch: the edges at a vertex lead to its neighbours; the
faces of an edge are its two ends; the faces of a ring are the edges between consecutive vertices. -/
theorem C85_neighbourhoods (edges : List (Nat × Nat)) (size maxK : Nat) (he : EdgesIn edges size) :
    (∀ v t, t ∈ (ringSets edges size maxK).cofacesOf 0 {v} ↔ ∃ u, Joined edges v u ∧ t = {v, u}) ∧
    (∀ u v, Joined edges u v → {u, v} ∈ ringSets edges size maxK 1 ∧
      (ringSets edges size maxK).facesOf 1 {u, v} = {{u}, {v}}) ∧
    ∀ r, IsRing edges r → r.length ≤ maxK → r.toFinset ∈ ringSets edges size maxK 2 ∧
      ∀ f, f ∈ (ringSets edges size maxK).facesOf 2 r.toFinset ↔
        ∃ i j u v, Follows r.length i j ∧ r[i]? = some u ∧ r[j]? = some v ∧ f = {u, v} := by
  have hjoin : ∀ u v, Joined edges u v → u < size ∧ v < size := by
    rintro u v ⟨-, h | h⟩
    · exact he _ h
    · exact (he _ h).symm
  have hedge : ∀ s, s ∈ ringSets edges size maxK 1 ↔ ∃ u v, Joined edges u v ∧ s = {u, v} := by
    intro s
    simp only [ringSets, Finset.mem_filter, Finset.mem_powerset]
    constructor
    · exact fun h => h.2
    · rintro ⟨u, v, hj, rfl⟩
      refine ⟨?_, u, v, hj, rfl⟩
      obtain ⟨a, b⟩ := hjoin u v hj
      intro w hw
      rw [Finset.mem_insert, Finset.mem_singleton] at hw
      rcases hw with rfl | rfl
      · exact Finset.mem_range.mpr a
      · exact Finset.mem_range.mpr b
  refine ⟨?_, ?_, ?_⟩
  · intro v t
    show t ∈ Finset.filter _ _ ↔ _
    rw [Finset.mem_filter, hedge]
    constructor
    · rintro ⟨⟨a, b, hj, rfl⟩, hv⟩
      have : v ∈ ({a, b} : Finset Nat) := hv (Finset.mem_singleton_self v)
      rw [Finset.mem_insert, Finset.mem_singleton] at this
      rcases this with rfl | rfl
      · exact ⟨b, hj, rfl⟩
      · exact ⟨a, ⟨hj.1.symm, hj.2.symm⟩, Finset.pair_comm _ _⟩
    · rintro ⟨u, hj, rfl⟩
      exact ⟨⟨v, u, hj, rfl⟩, by simp⟩
  · intro u v hj
    refine ⟨(hedge _).mpr ⟨u, v, hj, rfl⟩, ?_⟩
    obtain ⟨a, b⟩ := hjoin u v hj
    ext f
    show f ∈ Finset.filter _ _ ↔ _
    rw [Finset.mem_filter]
    simp only [ringSets, Finset.mem_image, Finset.mem_range, Finset.mem_insert, Finset.mem_singleton]
    constructor
    · rintro ⟨⟨w, -, rfl⟩, hs⟩
      have : w ∈ ({u, v} : Finset Nat) := hs (Finset.mem_singleton_self w)
      rw [Finset.mem_insert, Finset.mem_singleton] at this
      rcases this with rfl | rfl
      · exact .inl rfl
      · exact .inr rfl
    · rintro (rfl | rfl)
      · exact ⟨⟨u, a, rfl⟩, by simp⟩
      · exact ⟨⟨v, b, rfl⟩, by simp⟩
  · intro r hr hle
    refine ⟨?_, fun f => ?_⟩
    · simp only [ringSets, Finset.mem_filter, Finset.mem_powerset]
      exact ⟨fun v hv => Finset.mem_range.mpr (ring_vertices he hr (List.mem_toFinset.mp hv)), r, hr, hle, rfl⟩
    · show f ∈ Finset.filter _ _ ↔ _
      rw [Finset.mem_filter, hedge]
      constructor
      · rintro ⟨⟨u, v, hj, rfl⟩, hs⟩
        obtain ⟨i, hi⟩ := List.mem_iff_getElem?.mp (List.mem_toFinset.mp (hs (Finset.mem_insert_self u _)))
        obtain ⟨j, hj'⟩ := List.mem_iff_getElem?.mp
          (List.mem_toFinset.mp (hs (Finset.mem_insert_of_mem (Finset.mem_singleton_self v))))
        rcases (hr.joined i j u v hi hj').mp hj with h | h
        · exact ⟨i, j, u, v, h, hi, hj', rfl⟩
        · exact ⟨j, i, v, u, h, hj', hi, Finset.pair_comm _ _⟩
      · rintro ⟨i, j, u, v, hf, hi, hj, rfl⟩
        refine ⟨⟨u, v, (hr.joined i j u v hi hj).mpr (.inl hf), rfl⟩, ?_⟩
        intro w hw
        rw [Finset.mem_insert, Finset.mem_singleton] at hw
        rcases hw with rfl | rfl
        · exact List.mem_toFinset.mpr (List.mem_of_getElem? hi)
        · exact List.mem_toFinset.mpr (List.mem_of_getElem? hj)

/-- **C85** A vertex gets one message from each of its neighbours, with the feature of the edge in between,
and nothing else. -/
theorem C85_a_vertex_hears_its_neighbours (edges : List (Nat × Nat)) (size maxK : Nat) (he : EdgesIn edges size)
    (r : Rule R) (down : Bool) (h : Nat → Finset Nat → R) (v : Nat) :
    (ringSets edges size maxK).step r down h 0 {v} =
      r.new (h 0 {v}) (∑ u ∈ (Finset.range size).filter (Joined edges v),
        r.up (h 0 {u}) (some (h 1 {v, u}))) 0 0 := by
  have hjoin : ∀ u v, Joined edges u v → u < size ∧ v < size := by
    rintro u v ⟨-, h | h⟩
    · exact he _ h
    · exact (he _ h).symm
  have hcof := (C85_neighbourhoods edges size maxK he).1 v
  unfold Cells.step
  simp only [Cells.facesOf, Finset.sum_empty, ite_self]
  congr 1
  symm
  refine Finset.sum_bij (fun u _ => {v, u}) ?_ ?_ ?_ ?_
  · intro u hu
    exact (hcof _).mpr ⟨u, (Finset.mem_filter.mp hu).2, rfl⟩
  · intro a ha b hb e
    have h1 := (Finset.mem_filter.mp ha).2.1
    have : a ∈ ({v, b} : Finset Nat) := by rw [← e]; simp
    rw [Finset.mem_insert, Finset.mem_singleton] at this
    rcases this with rfl | rfl
    · exact absurd rfl h1
    · rfl
  · intro t ht
    obtain ⟨u, hj, rfl⟩ := (hcof t).mp ht
    exact ⟨u, Finset.mem_filter.mpr ⟨Finset.mem_range.mpr (hjoin _ _ hj).2, hj⟩, rfl⟩
  · intro u hu
    have hj := (Finset.mem_filter.mp hu).2
    have : (ringSets edges size maxK 0).filter (fun w => w ⊆ {v, u} ∧ w ≠ {v}) = {{u}} := by
      ext w
      simp only [ringSets, Finset.mem_filter, Finset.mem_image, Finset.mem_range, Finset.mem_singleton]
      constructor
      · rintro ⟨⟨a, -, rfl⟩, hs, hne⟩
        have : a ∈ ({v, u} : Finset Nat) := hs (Finset.mem_singleton_self a)
        rw [Finset.mem_insert, Finset.mem_singleton] at this
        rcases this with rfl | rfl
        · exact absurd rfl hne
        · rfl
      · rintro rfl
        refine ⟨⟨u, (hjoin _ _ hj).2, rfl⟩, by simp, ?_⟩
        intro e
        exact hj.1 (Finset.singleton_injective e).symm
    rw [this, Finset.sum_singleton]

/-! ### Predictions -/

theorem map_of_forall₂ {A B C : Type} {P : A → B → Prop} {f : A → C} {f' : B → C} {l : List A} {l' : List B}
    (h : List.Forall₂ P l l') (hf : ∀ a b, P a b → f' b = f a) : l'.map f' = l.map f := by
  induction h with
  | nil => rfl
  | cons hab _ ih => rw [List.map_cons, List.map_cons, ih, hf _ _ hab]

theorem forall₂_source {A B : Type} {P : A → B → Prop} {l : List A} {l' : List B} (h : List.Forall₂ P l l')
    {b : B} (hb : b ∈ l') : ∃ a ∈ l, P a b := by
  induction h with
  | nil => simp at hb
  | @cons a b' l l' hab _ ih =>
    rcases List.mem_cons.mp hb with rfl | hb
    · exact ⟨a, by simp, hab⟩
    · obtain ⟨a', h1, h2⟩ := ih hb
      exact ⟨a', by simp [h1], h2⟩

theorem mapE_forall₂ {A B : Type} {f : A → Py B} {P : A → B → Prop} {l : List A}
    (h : ∀ a ∈ l, ∃ b, f a = .ok b ∧ P a b) : ∃ bs, mapE f l = .ok bs ∧ List.Forall₂ P l bs := by
  induction l with
  | nil => exact ⟨[], rfl, .nil⟩
  | cons a l ih =>
    obtain ⟨b, h1, h2⟩ := h a (by simp)
    obtain ⟨bs, h3, h4⟩ := ih fun a' h' => h a' (by simp [h'])
    rw [mapE_eq_ok_iff] at h3
    exact ⟨b :: bs, mapE_eq_ok_iff.mpr (.cons h1 h3), .cons h2 h4⟩

theorem GINE_run (K : Cells) (down : Bool) : ∀ (convs : List (GINELevel 𝕜 R)) (h : Nat → Finset Nat → R),
    K.run down 0 h (convs.map fun l _ => l.rule) = K.run false 0 h (convs.map fun l _ => l.rule)
  | [], _ => rfl
  | l :: convs, h => congrArg (List.cons (fun d s => if d ≤ 0 then K.step l.rule false h d s else h d s))
      (GINE_run K down convs _)

theorem EmbedGIN.predict_eq {net : EmbedGIN 𝕜 R} {comp : Complex R L} {down : Bool}
    {cells : Nat → List (Finset Nat)} {h : Nat → Finset Nat → R}
    (hv : Shows ((net.init.embed comp).view.upTo 1) down cells h) {K : Cells} (hK : setsOf cells = K) :
    net.predict comp = net.predictOn K h := by
  unfold EmbedGIN.predict EmbedGIN.predictOn
  simp only
  rw [hv.final none hv.run, poolOf_eq (hv.nodup 0), ← hK, GINE_run]
  rfl

/-- **C85** SparseCIN, CIN++ and CIN on clique complexes: the predictions for a batch of graphs, from the
edge lists, are those of the vertex-set formulas on the cliques of each graph. -/
theorem C85_clique_predictions (g : Gudhi) (hg : g.Ok) (agg : List R → R)
    (hagg : ∀ l l' : List R, l.Perm l' → agg l = agg l') (k : Nat) (down : Bool)
    (sparse : SparseNet R (SparseLevel 𝕜 R)) (hs : sparse.Fits)
    (pp : SparseNet R (PPLevel 𝕜 R)) (hp : pp.Fits) (cin : CINNet R (CINLevel 𝕜 R)) (hc : cin.Fits)
    (Gs : List (FGraph R L)) (hne : Gs ≠ []) (hG : ∀ G ∈ Gs, G.Ok) (mB : Nat) :
    ∃ cs, mapE (FGraph.lift g agg k down) Gs = .ok cs ∧
      (fromComplexList cs mB >>= sparse.forward 𝕜 SparseLevel.forward) = .ok (Gs.map fun G =>
        sparse.predictOn 𝕜 SparseLevel.rule down ((cliqueSets G.edges G.size k).upTo mB) (cliqueFeatures agg G.x)) ∧
      (fromComplexList cs mB >>= pp.forward 𝕜 PPLevel.forward) = .ok (Gs.map fun G =>
        pp.predictOn 𝕜 PPLevel.rule down ((cliqueSets G.edges G.size k).upTo mB) (cliqueFeatures agg G.x)) ∧
      (fromComplexList cs mB >>= cin.forward 𝕜 CINLevel.forward) = .ok (Gs.map fun G =>
        cin.predictOn 𝕜 CINLevel.rule down ((cliqueSets G.edges G.size k).upTo mB) (cliqueFeatures agg G.x)) := by
  obtain ⟨cs, h1, h2⟩ := mapE_forall₂ (f := FGraph.lift g agg k down) (P := fun G comp => comp.Ready ∧
      0 < comp.cellsIn 0 ∧ ∃ cells, Shows (comp.view.upTo mB) down cells (cliqueFeatures agg G.x) ∧
        setsOf cells = (cliqueSets G.edges G.size k).upTo mB) (l := Gs) (fun G h => by
    have ok := hG G h
    obtain ⟨comp, e, rest⟩ := clique_shows hg hagg ok.edges ok.pos ok.rows k ok.labels down mB
    exact ⟨comp, e, rest⟩)
  have hall : ∀ c ∈ cs, c.Ready ∧ 0 < c.cellsIn 0 := by
    intro c hc
    obtain ⟨G, -, h⟩ := forall₂_source h2 hc
    exact ⟨h.1, h.2.1⟩
  have hne' : cs ≠ [] := by
    rintro rfl
    cases h2
    exact hne rfl
  obtain ⟨p1, p2, p3⟩ := C16_predictions_meet_the_specification sparse hs pp hp cin hc cs hne'
    (fun c hc => (hall c hc).1) (fun c hc => (hall c hc).2) mB
  refine ⟨cs, h1, ?_, ?_, ?_⟩
  · rw [p1, ok_inj]
    refine map_of_forall₂ h2 fun G c => ?_
    rintro ⟨-, -, cells, hv, hset⟩
    rw [SparseNet.predict_eq hv, hset]
  · rw [p2, ok_inj]
    refine map_of_forall₂ h2 fun G c => ?_
    rintro ⟨-, -, cells, hv, hset⟩
    rw [SparseNet.predict_eq hv, hset]
  · rw [p3, ok_inj]
    refine map_of_forall₂ h2 fun G c => ?_
    rintro ⟨-, -, cells, hv, hset⟩
    rw [CINNet.predict_eq hv, hset]

section
variable [DecidableEq R]

/-- **C85** SparseCIN, CIN++ and CIN on ring complexes whose edges and rings get features from the
lifting: likewise, on the vertices, edges and rings of each graph. -/
theorem C85_ring_predictions (g : Gudhi) (hg : g.Ok) (lib : RingLib) (hl : lib.Ok) (agg : List R → R)
    (hagg : ∀ l l' : List R, l.Perm l' → agg l = agg l') (maxK : Nat) (down : Bool)
    (sparse : SparseNet R (SparseLevel 𝕜 R)) (hs : sparse.Fits)
    (pp : SparseNet R (PPLevel 𝕜 R)) (hp : pp.Fits) (cin : CINNet R (CINLevel 𝕜 R)) (hc : cin.Fits)
    (Gs : List (RGraph R L)) (hne : Gs ≠ []) (hG : ∀ G ∈ Gs, G.Ok) (mB : Nat) :
    ∃ cs, mapE (RGraph.lift g lib agg maxK down true true) Gs = .ok cs ∧
      (fromComplexList cs mB >>= sparse.forward 𝕜 SparseLevel.forward) = .ok (Gs.map fun G =>
        sparse.predictOn 𝕜 SparseLevel.rule down ((ringSets G.edges G.size maxK).upTo mB) (G.features agg)) ∧
      (fromComplexList cs mB >>= pp.forward 𝕜 PPLevel.forward) = .ok (Gs.map fun G =>
        pp.predictOn 𝕜 PPLevel.rule down ((ringSets G.edges G.size maxK).upTo mB) (G.features agg)) ∧
      (fromComplexList cs mB >>= cin.forward 𝕜 CINLevel.forward) = .ok (Gs.map fun G =>
        cin.predictOn 𝕜 CINLevel.rule down ((ringSets G.edges G.size maxK).upTo mB) (G.features agg)) := by
  obtain ⟨cs, h1, h2⟩ := mapE_forall₂ (f := RGraph.lift g lib agg maxK down true true)
      (P := fun G comp => RingFacts comp true true ∧
        ∃ cells, Shows (comp.view.upTo mB) down cells (G.features agg) ∧
          setsOf cells = (ringSets G.edges G.size maxK).upTo mB) (l := Gs) (fun G h => by
    obtain ⟨comp, e, f, cells, a, b, -⟩ := ring_shows (agg := agg) (maxK := maxK) (down := down)
      (initEdges := true) (initRings := true) hg hl hagg (hG G h) mB
    exact ⟨comp, e, f, cells, b rfl rfl, a⟩)
  have hall : ∀ c ∈ cs, RingFacts c true true := by
    intro c hc
    obtain ⟨G, -, h⟩ := forall₂_source h2 hc
    exact h.1
  have hne' : cs ≠ [] := by
    rintro rfl
    cases h2
    exact hne rfl
  obtain ⟨p1, p2, p3⟩ := C16_predictions_meet_the_specification sparse hs pp hp cin hc cs hne'
    (fun c hc => (hall c hc).ready) (fun c hc => (hall c hc).cells 0 (Nat.zero_le _)) mB
  refine ⟨cs, h1, ?_, ?_, ?_⟩
  · rw [p1, ok_inj]
    refine map_of_forall₂ h2 fun G c => ?_
    rintro ⟨-, cells, hv, hset⟩
    rw [SparseNet.predict_eq hv, hset]
  · rw [p2, ok_inj]
    refine map_of_forall₂ h2 fun G c => ?_
    rintro ⟨-, cells, hv, hset⟩
    rw [SparseNet.predict_eq hv, hset]
  · rw [p3, ok_inj]
    refine map_of_forall₂ h2 fun G c => ?_
    rintro ⟨-, cells, hv, hset⟩
    rw [CINNet.predict_eq hv, hset]

/-- **C85** The embedding networks on ring complexes: EmbedSparseCIN and EmbedCINpp compute the formulas
on vertices, edges and rings, EmbedSparseCINNoRings on vertices and edges, EmbedGIN on the graph, each
from the features of its own initial layer. -/
theorem C85_embedding_predictions (g : Gudhi) (hg : g.Ok) (lib : RingLib) (hl : lib.Ok) (agg : List R → R)
    (hagg : ∀ l l' : List R, l.Perm l' → agg l = agg l') (maxK : Nat) (down initEdges initRings : Bool)
    (sparse : EmbedNet R (SparseLevel 𝕜 R)) (hs : sparse.net.Fits)
    (hrs : ∀ l l' : List R, l.Perm l' → sparse.init.reduce l = sparse.init.reduce l')
    (pp : EmbedNet R (PPLevel 𝕜 R)) (hp : pp.net.Fits)
    (hrp : ∀ l l' : List R, l.Perm l' → pp.init.reduce l = pp.init.reduce l')
    (flat : EmbedNet R (SparseLevel 𝕜 R)) (hf : flat.flat.net.Fits)
    (hrf : ∀ l l' : List R, l.Perm l' → flat.init.reduce l = flat.init.reduce l')
    (gin : EmbedGIN 𝕜 R) (hn : gin.convs ≠ []) (hread : gin.readout = "sum" ∨ gin.readout = "mean")
    (hrg : ∀ l l' : List R, l.Perm l' → gin.init.reduce l = gin.init.reduce l')
    (hemb : initEdges = true → sparse.init.eEmbed.isSome ∧ pp.init.eEmbed.isSome ∧
      flat.init.eEmbed.isSome ∧ gin.init.eEmbed.isSome)
    (Gs : List (RGraph R L)) (hne : Gs ≠ []) (hG : ∀ G ∈ Gs, G.Ok) (mB : Nat) (h1 : 1 ≤ mB)
    (hms : min 2 mB ≤ sparse.net.maxDim) (hmp : min 2 mB ≤ pp.net.maxDim) :
    ∃ cs, mapE (RGraph.lift g lib agg maxK down initEdges initRings) Gs = .ok cs ∧
      (fromComplexList cs mB >>= sparse.forward 𝕜 SparseLevel.forward) = .ok (Gs.map fun G =>
        sparse.net.predictOn 𝕜 SparseLevel.rule down ((ringSets G.edges G.size maxK).upTo mB)
          (sparse.init.onSets initEdges (ringSets G.edges G.size maxK) (G.features agg))) ∧
      (fromComplexList cs mB >>= pp.forward 𝕜 PPLevel.forward) = .ok (Gs.map fun G =>
        pp.net.predictOn 𝕜 PPLevel.rule down ((ringSets G.edges G.size maxK).upTo mB)
          (pp.init.onSets initEdges (ringSets G.edges G.size maxK) (G.features agg))) ∧
      (fromComplexList cs mB >>= flat.forwardNoRings 𝕜 SparseLevel.forward) = .ok (Gs.map fun G =>
        flat.flat.net.predictOn 𝕜 SparseLevel.rule down ((ringSets G.edges G.size maxK).upTo 1)
          (flat.init.onSets initEdges (ringSets G.edges G.size maxK) (G.features agg))) ∧
      (fromComplexList cs mB >>= gin.forward) = .ok (Gs.map fun G =>
        gin.predictOn ((ringSets G.edges G.size maxK).upTo 1)
          (gin.init.onSets initEdges (ringSets G.edges G.size maxK) (G.features agg))) := by
  obtain ⟨cs, e1, h2⟩ := mapE_forall₂ (f := RGraph.lift g lib agg maxK down initEdges initRings)
      (P := fun G comp => RingFacts comp initEdges initRings ∧ ∀ m : Nat,
        ∃ cells, setsOf cells = (ringSets G.edges G.size maxK).upTo m ∧
        ∀ l : EmbedInit R, (∀ a b : List R, a.Perm b → l.reduce a = l.reduce b) →
          (initEdges = true → l.eEmbed.isSome) →
          Shows ((l.embed comp).view.upTo m) down cells
            (l.onSets initEdges (ringSets G.edges G.size maxK) (G.features agg))) (l := Gs) (fun G h => by
    obtain ⟨comp, e, f, -⟩ := ring_shows (agg := agg) (maxK := maxK) (down := down)
      (initEdges := initEdges) (initRings := initRings) hg hl hagg (hG G h) mB
    refine ⟨comp, e, f, fun m => ?_⟩
    obtain ⟨comp', e', -, cells, a, -, b⟩ := ring_shows (agg := agg) (maxK := maxK) (down := down)
      (initEdges := initEdges) (initRings := initRings) hg hl hagg (hG G h) m
    rw [e] at e'
    cases e'
    exact ⟨cells, a, b⟩)
  have hall : ∀ c ∈ cs, RingFacts c initEdges initRings := by
    intro c hc
    obtain ⟨G, -, h⟩ := forall₂_source h2 hc
    exact h.1
  have hne' : cs ≠ [] := by
    rintro rfl
    cases h2
    exact hne rfl
  have hu := uniform_of_facts hall
  have hmin : ∀ {m : Nat}, min 2 mB ≤ m → ∀ c ∈ cs, min c.dimension mB ≤ m := by
    intro m hm c hc
    have := (hall c hc).small
    omega
  have tk : ∀ {l : EmbedInit R}, (initEdges = true → l.eEmbed.isSome) → ∀ c ∈ cs, l.Takes c :=
    fun h c hc => (hall c hc).takes h
  obtain ⟨p1, p2, p3⟩ := C63_predictions_meet_the_specification sparse hs hrs pp hp hrp flat hf hrf cs hne'
    (tk fun h => (hemb h).1) (tk fun h => (hemb h).2.1) (tk fun h => (hemb h).2.2.1) hu mB (hmin hms) (hmin hmp) h1
  obtain ⟨p4, -⟩ := C63_embed_gin_predictions gin hn hread hrg cs hne' (tk fun h => (hemb h).2.2.2) hu mB h1
  refine ⟨cs, e1, ?_, ?_, ?_, ?_⟩
  · rw [p1, ok_inj]
    refine map_of_forall₂ h2 fun G c => ?_
    rintro ⟨-, h⟩
    obtain ⟨cells, hset, hv⟩ := h mB
    unfold EmbedNet.predict
    rw [SparseNet.predict_eq (hv _ hrs fun h => (hemb h).1), hset]
  · rw [p2, ok_inj]
    refine map_of_forall₂ h2 fun G c => ?_
    rintro ⟨-, h⟩
    obtain ⟨cells, hset, hv⟩ := h mB
    unfold EmbedNet.predict
    rw [SparseNet.predict_eq (hv _ hrp fun h => (hemb h).2.1), hset]
  · rw [p3, ok_inj]
    refine map_of_forall₂ h2 fun G c => ?_
    rintro ⟨-, h⟩
    obtain ⟨cells, hset, hv⟩ := h 1
    unfold EmbedNet.predict
    rw [SparseNet.predict_eq (hv flat.flat.init hrf fun h => (hemb h).2.2.1), hset]
    rfl
  · rw [p4, ok_inj]
    refine map_of_forall₂ h2 fun G c => ?_
    rintro ⟨-, h⟩
    obtain ⟨cells, hset, hv⟩ := h 1
    exact EmbedGIN.predict_eq (hv _ hrg fun h => (hemb h).2.2.2) hset

end

/-! ### Examples -/

section Examples
open Fixtures

/-- The rings of the shed: its roof and its wall. -/
example : ringSets shed 5 4 2 = {{2, 3, 4}, {0, 1, 2, 3}} := by
  have hr : getRings plainRings shed 4 = [[3, 4, 2], [2, 3, 0, 1]] := by decide +kernel
  ext s
  rw [mem_ringSets (g := plainGudhi) (lib := plainRings) plainGudhi_ok plainRings_ok shed_in (by omega), hr]
  have h1 : ([3, 4, 2] : List Nat).toFinset = {2, 3, 4} := by decide
  have h2 : ([2, 3, 0, 1] : List Nat).toFinset = {0, 1, 2, 3} := by decide
  simp [ringDims, ringCells, h1, h2]

/-- The wall shares the edge between 2 and 3 with the roof. -/
example : ({2, 3} : Finset Nat) ∈ (ringSets shed 5 4).facesOf 2 [2, 3, 4].toFinset ∧
    ({2, 3} : Finset Nat) ∈ (ringSets shed 5 4).facesOf 2 [2, 3, 0, 1].toFinset := by
  have h := (C85_neighbourhoods shed 5 4 shed_in).2.2
  refine ⟨((h [2, 3, 4] (ringCheck_iff.mp (by decide)) (by decide)).2 _).mpr ⟨0, 1, 2, 3, by decide, rfl, rfl, rfl⟩,
    ((h [2, 3, 0, 1] (ringCheck_iff.mp (by decide)) (by decide)).2 _).mpr ⟨0, 1, 2, 3, by decide, rfl, rfl, rfl⟩⟩

/-- The features of an edge, and the sum over the neighbours of vertex 0. -/
example : shedG.features List.sum 1 {3, 4} = 34 ∧ combineSet List.sum shedG.x {2} = 3 ∧
    (Finset.range 5).filter (Joined shed 0) = {1, 3} := by
  refine ⟨by decide +kernel, ?_, by decide +kernel⟩
  rw [combineSet, Finset.sort_singleton]
  decide +kernel

/-- The hypotheses of the theorems on ring complexes are met by a batch of the shed and its renumbering. -/
example : plainGudhi.Ok ∧ plainRings.Ok ∧ (∀ G ∈ [shedG, shedH], G.Ok) ∧ noRingsQ.net.Fits ∧ flatQ.flat.net.Fits ∧
    (∀ l l' : List ℚ, l.Perm l' → noRingsQ.init.reduce l = noRingsQ.init.reduce l') ∧
    noRingsQ.init.eEmbed.isSome ∧ min 2 2 ≤ noRingsQ.net.maxDim ∧ ginQ.convs ≠ [] :=
  ⟨plainGudhi_ok, plainRings_ok, by simpa using ⟨shedG_ok, shedH_ok⟩, sparseNetQ_fits,
    ⟨by simp [EmbedNet.flat, flatQ, sparseNetQ], by simp [EmbedNet.flat, flatQ, sparseNetQ], rfl, .inr rfl, .inl rfl,
      by decide⟩,
    fun _ _ h => h.sum_eq, rfl, by decide, by simp [ginQ]⟩

end Examples

/-! ### The theorems on concrete cases -/

section Cases
open Fixtures

/-- The sum of the messages at vertex 2 of the shed, for a rule that adds up everything. -/
example := C85_a_vertex_hears_its_neighbours (R := ℚ) shed 5 4 shed_in
  ⟨fun x a => x + a.getD 0, fun x a => x - a, id, fun x u d b => x + u + d + b⟩ true (fun d s => d + s.card) 2

example := C85_clique_predictions (L := Nat) plainGudhi plainGudhi_ok List.sum (fun _ _ h => h.sum_eq) 2 true sparseNetQ
  sparseNetQ_fits ppNetQ ppNetQ_fits cinNetQ cinNetQ_fits [kiteG, kiteH] (by simp)
  (by simpa using ⟨kiteG_ok, kiteH_ok⟩) 2

example := C85_ring_predictions plainGudhi plainGudhi_ok plainRings plainRings_ok List.sum (fun _ _ h => h.sum_eq) 4 true
  sparseNetQ sparseNetQ_fits ppNetQ ppNetQ_fits cinNetQ cinNetQ_fits [shedG, shedH] (by simp)
  (by simpa using ⟨shedG_ok, shedH_ok⟩) 2

end Cases

end Verif
