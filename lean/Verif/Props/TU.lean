import Verif.Lemmas.TU

/-!
# C58: reading the TU datasets
-/

namespace Verif

/-! ### Helpers -/

/-- A loaded graph before the degrees are encoded. -/
def loaded (order : List Nat → List Nat) (degreeAsTag : Bool) (gs : List TUSource) (g : TUSource) : TUGraph :=
  let fin := fun g => degreeTags degreeAsTag
    (finished (gs.map TUSource.label) (gs.flatMap fun g => g.nodes.map TUNode.tag) g)
  let tagset := order ((gs.map fin).flatMap TUGraph.tags)
  { fin g with features := (fin g).tags.map fun t => hotRow tagset.length (tagset.idxOf t) }

theorem load_ok {order : List Nat → List Nat} (ho : SetOrder order) {gs : List TUSource} (degreeAsTag : Bool)
    (hin : ∀ g ∈ gs, g.InRange) (he : ∀ g ∈ gs, g.HasEdge) :
    loadData order (tuFile gs) degreeAsTag =
      .ok (degreeFeatures degreeAsTag (gs.map (loaded order degreeAsTag gs)),
        (firsts (gs.map TUSource.label)).length) := by
  unfold loadData
  rw [(read_file gs).1 hin, ok_bind]
  have h1 : mapE (finishGraph (readState gs (gs.flatMap fun g => g.nodes.map TUNode.tag) []).labels)
      (readState gs (gs.flatMap fun g => g.nodes.map TUNode.tag) []).graphs =
      .ok (gs.map (finished (gs.map TUSource.label) (gs.flatMap fun g => g.nodes.map TUNode.tag))) := by
    show mapE _ (gs.map (sourceGraph _)) = _
    rw [mapE_map]
    exact mapE_ok fun g hg => (finish_source hg (hin g hg)).1 (he g hg)
  rw [h1, ok_bind]
  rw [List.map_map]
  have h2 : mapE (tagFeatures (order ((gs.map (degreeTags degreeAsTag ∘ finished (gs.map TUSource.label)
      (gs.flatMap fun g => g.nodes.map TUNode.tag))).flatMap TUGraph.tags)))
      (gs.map (degreeTags degreeAsTag ∘ finished (gs.map TUSource.label)
        (gs.flatMap fun g => g.nodes.map TUNode.tag))) = .ok (gs.map (loaded order degreeAsTag gs)) := by
    rw [mapE_map]
    refine mapE_ok fun g hg => ?_
    rw [tagFeatures_ok]
    · rfl
    · intro t ht
      rw [(ho _).2, List.mem_flatMap]
      exact ⟨_, List.mem_map_of_mem hg, ht⟩
  rw [h2, ok_bind]
  simp [readState]

theorem load_inv {order : List Nat → List Nat} {gs : List TUSource} {degreeAsTag : Bool}
    {r : List TUGraph × Nat} (h : loadData order (tuFile gs) degreeAsTag = .ok r) :
    (∀ g ∈ gs, g.InRange) ∧ ∀ g ∈ gs, g.HasEdge := by
  have hin : ∀ g ∈ gs, g.InRange := by
    by_contra hno
    push Not at hno
    unfold loadData at h
    rw [(read_file gs).2 hno] at h
    cases h
  refine ⟨hin, ?_⟩
  unfold loadData at h
  rw [(read_file gs).1 hin, ok_bind] at h
  obtain ⟨l, hl, -⟩ := bind_eq_ok.mp h
  change mapE _ (gs.map (sourceGraph _)) = _ at hl
  rw [mapE_map, mapE_eq_ok_iff] at hl
  intro g hg
  by_contra hno
  have : ∃ a, finishGraph (readState gs (gs.flatMap fun g => g.nodes.map TUNode.tag) []).labels
      (sourceGraph (gs.flatMap fun g => g.nodes.map TUNode.tag) g) = .ok a := by
    have key : ∀ {A B : Type} {r : A → B → Prop} {l : List A} {m : List B}, List.Forall₂ r l m →
        ∀ a ∈ l, ∃ b, r a b := by
      intro A B r l m h
      induction h with
      | nil => simp
      | cons h1 _ ih =>
        intro a ha
        rcases List.mem_cons.mp ha with rfl | ha
        · exact ⟨_, h1⟩
        · exact ih a ha
    exact key hl g hg
  obtain ⟨a, ha⟩ := this
  rw [(finish_source hg (hin g hg)).2 hno] at ha
  cases ha

theorem degreeFeatures_facts (degreeAsTag : Bool) (gs : List TUGraph) :
    (degreeFeatures degreeAsTag gs).map TUGraph.label = gs.map TUGraph.label ∧
    (degreeFeatures degreeAsTag gs).map TUGraph.edgeMat = gs.map TUGraph.edgeMat := by
  unfold degreeFeatures
  have key : ∀ (gs : List TUGraph) (w : Nat) (corrs : List Nat),
      (encodeDegrees w corrs gs).map TUGraph.label = gs.map TUGraph.label ∧
      (encodeDegrees w corrs gs).map TUGraph.edgeMat = gs.map TUGraph.edgeMat := by
    intro gs
    induction gs with
    | nil => exact fun _ _ => ⟨rfl, rfl⟩
    | cons g gs ih =>
      intro w corrs
      obtain ⟨h1, h2⟩ := ih w (corrs.drop g.features.length)
      unfold encodeDegrees
      rw [List.map_cons, List.map_cons, List.map_cons, List.map_cons, h1, h2]
      exact ⟨rfl, rfl⟩
  split
  · exact key _ _ _
  · exact ⟨rfl, rfl⟩

theorem loaded_label (order : List Nat → List Nat) (degreeAsTag : Bool) (gs : List TUSource) (g : TUSource) :
    (loaded order degreeAsTag gs g).label = (firsts (gs.map TUSource.label)).idxOf g.label ∧
    (loaded order degreeAsTag gs g).edgeMat = sourceEdges g := by
  unfold loaded degreeTags
  cases degreeAsTag <;> exact ⟨rfl, rfl⟩

theorem load_labels {order : List Nat → List Nat} (ho : SetOrder order) {gs : List TUSource} {degreeAsTag : Bool}
    {out : List TUGraph} {n : Nat} (h : loadData order (tuFile gs) degreeAsTag = .ok (out, n)) :
    out.map TUGraph.label = (gs.map TUSource.label).map (firsts (gs.map TUSource.label)).idxOf ∧
    out.map TUGraph.edgeMat = gs.map sourceEdges ∧ n = (firsts (gs.map TUSource.label)).length := by
  obtain ⟨hin, he⟩ := load_inv h
  rw [load_ok ho degreeAsTag hin he, ok_inj, Prod.mk.injEq] at h
  obtain ⟨rfl, rfl⟩ := h
  obtain ⟨h1, h2⟩ := degreeFeatures_facts degreeAsTag (gs.map (loaded order degreeAsTag gs))
  refine ⟨?_, ?_, rfl⟩
  · rw [h1, List.map_map, List.map_map]
    exact List.map_congr_left fun g _ => (loaded_label order degreeAsTag gs g).1
  · rw [h2, List.map_map]
    exact List.map_congr_left fun g _ => (loaded_label order degreeAsTag gs g).2

/-! ### C58 -/

/-- **C58** A file can be read exactly if every listed neighbour is a node and every graph has an edge. -/
theorem C58_readable_files (order : List Nat → List Nat) (ho : SetOrder order) (gs : List TUSource)
    (degreeAsTag : Bool) :
    (∃ out, loadData order (tuFile gs) degreeAsTag = .ok out) ↔ ∀ g ∈ gs, g.InRange ∧ g.HasEdge := by
  constructor
  · rintro ⟨r, h⟩ g hg
    exact ⟨(load_inv h).1 g hg, (load_inv h).2 g hg⟩
  · intro h
    exact ⟨_, load_ok ho degreeAsTag (fun g hg => (h g hg).1) fun g hg => (h g hg).2⟩

/-- **C58** A neighbour that is not a node is an `AssertionError`. -/
theorem C58_neighbour_out_of_range (order : List Nat → List Nat) (gs : List TUSource) (degreeAsTag : Bool)
    (h : ∃ g ∈ gs, ¬ g.InRange) : loadData order (tuFile gs) degreeAsTag = .error .assertion := by
  unfold loadData
  rw [(read_file gs).2 h]
  rfl

/-- **C58** A graph with nodes but without edges is an `IndexError`, one without nodes a `ValueError`, if the graphs
before it have edges. -/
theorem C58_graph_without_edges (order : List Nat → List Nat) (pre post : List TUSource) (g : TUSource)
    (degreeAsTag : Bool) (hin : ∀ g' ∈ pre ++ g :: post, g'.InRange) (hpre : ∀ g' ∈ pre, g'.HasEdge)
    (hg : ¬ g.HasEdge) :
    loadData order (tuFile (pre ++ g :: post)) degreeAsTag = .error (if g.nodes = [] then .value else .index) := by
  unfold loadData
  rw [(read_file _).1 hin, ok_bind]
  show (mapE _ ((pre ++ g :: post).map (sourceGraph _)) >>= _) = _
  rw [mapE_map, mapE_append, mapE_ok fun g' hg' => (finish_source (g := g') (by simp [hg']) (hin g' (by simp [hg']))).1
    (hpre g' hg'), ok_bind, mapE_cons, (finish_source (by simp) (hin g (by simp))).2 hg]
  rfl

/-- **C58** The labels of the graphs are numbered by first occurrence, and the number of classes is the number of
different labels. -/
theorem C58_labels (order : List Nat → List Nat) (ho : SetOrder order) (gs : List TUSource) (degreeAsTag : Bool)
    (out : List TUGraph) (n : Nat) (h : loadData order (tuFile gs) degreeAsTag = .ok (out, n)) :
    NumberedByFirst (gs.map TUSource.label) (out.map TUGraph.label) ∧ n = (gs.map TUSource.label).dedup.length ∧
    ∀ (i j : Nat) (a b : TUSource) (a' b' : TUGraph), gs[i]? = some a → gs[j]? = some b → out[i]? = some a' →
      out[j]? = some b' → (a'.label = b'.label ↔ a.label = b.label) ∧ a'.label < n := by
  obtain ⟨h1, -, h3⟩ := load_labels ho h
  refine ⟨?_, ?_, ?_⟩
  · rw [h1]
    exact numberedByFirst _
  · rw [h3, length_firsts]
  · intro i j a b a' b' ha hb ha' hb'
    have hlab : ∀ (i : Nat) (a : TUSource) (a' : TUGraph), gs[i]? = some a → out[i]? = some a' →
        a'.label = (firsts (gs.map TUSource.label)).idxOf a.label := by
      intro i a a' ha ha'
      have := congrArg (fun l => l[i]?) h1
      simpa [List.getElem?_map, ha, ha'] using this
    rw [hlab i a a' ha ha', hlab j b b' hb hb', h3]
    have hm : a.label ∈ firsts (gs.map TUSource.label) :=
      mem_firsts.mpr (List.mem_map_of_mem (List.mem_of_getElem? ha))
    exact ⟨List.idxOf_inj hm, List.idxOf_lt_length_iff.mpr hm⟩

/-- **C58** The edge index of a graph: two nodes are joined if one is listed as a neighbour of the other, once in each
direction; a loop occurs twice. -/
theorem C58_edges (order : List Nat → List Nat) (ho : SetOrder order) (gs : List TUSource) (degreeAsTag : Bool)
    (out : List TUGraph) (n : Nat) (h : loadData order (tuFile gs) degreeAsTag = .ok (out, n)) :
    List.Forall₂ (fun (g : TUSource) (g' : TUGraph) =>
      (∀ u v, (u, v) ∈ g'.edgeMat ↔ g.Adj u v) ∧
      (∀ u v, (u, v) ∈ g'.edgeMat → 0 ≤ u ∧ u < g.nodes.length) ∧
      (∀ u v, u ≠ v → g'.edgeMat.count (u, v) ≤ 1) ∧ (∀ u, g.Adj u u → g'.edgeMat.count (u, u) = 2)) gs out := by
  obtain ⟨-, h2, -⟩ := load_labels ho h
  have hin := (load_inv h).1
  rw [List.forall₂_iff_get]
  have hlen : gs.length = out.length := by
    have := congrArg List.length h2
    simpa using this.symm
  refine ⟨hlen, fun i hi hi' => ?_⟩
  have hg : gs.get ⟨i, hi⟩ ∈ gs := List.get_mem _ _
  have heq : (out.get ⟨i, hi'⟩).edgeMat = sourceEdges (gs.get ⟨i, hi⟩) := by
    have := congrArg (fun l => l[i]?) h2
    simpa [List.getElem?_map, List.getElem?_eq_getElem hi, List.getElem?_eq_getElem hi'] using this
  generalize gs.get ⟨i, hi⟩ = g at hg heq
  rw [heq]
  have hb := built_source g
  obtain ⟨h3, h4, h5⟩ := hb.edge_matrix g.adj_symm
  refine ⟨h3, fun u v huv => ?_, h4, h5⟩
  rcases hb.edges _ _ ((h3 u v).mp huv) with hr | ⟨m, hm, hv⟩
  · exact hr
  · exact hin g hg m hm _ hv

/-- **C58** Without `degree_as_tag`: the tags are numbered by first occurrence throughout the file. -/
theorem C58_tags (order : List Nat → List Nat) (ho : SetOrder order) (gs : List TUSource)
    (out : List TUGraph) (n : Nat) (h : loadData order (tuFile gs) false = .ok (out, n)) :
    NumberedByFirst (gs.flatMap fun g => g.nodes.map TUNode.tag) (out.flatMap TUGraph.tags) := by
  obtain ⟨hin, he⟩ := load_inv h
  rw [load_ok ho false hin he, ok_inj, Prod.mk.injEq] at h
  obtain ⟨rfl, -⟩ := h
  have : ((degreeFeatures false (gs.map (loaded order false gs))).flatMap TUGraph.tags) =
      (gs.flatMap fun g => g.nodes.map TUNode.tag).map (firsts (gs.flatMap fun g => g.nodes.map TUNode.tag)).idxOf := by
    show (gs.map (loaded order false gs)).flatMap TUGraph.tags = _
    rw [List.flatMap_map, List.map_flatMap]
    simp only [List.map_map]
    rfl
  rw [this]
  exact numberedByFirst _

/-- **C58** Without `degree_as_tag`: every node has a one-hot row, as wide as there are different tags, and two nodes of
any two graphs have the same row exactly if they have the same tag. -/
theorem C58_tag_features (order : List Nat → List Nat) (ho : SetOrder order) (gs : List TUSource)
    (out : List TUGraph) (n : Nat) (h : loadData order (tuFile gs) false = .ok (out, n)) :
    ∃ row : Int → List Nat,
      out.map TUGraph.features = gs.map (fun g => g.nodes.map fun v => row v.tag) ∧
      ∀ a ∈ (gs.flatMap fun g => g.nodes.map TUNode.tag),
        IsOneHot (gs.flatMap fun g => g.nodes.map TUNode.tag).dedup.length (row a) ∧
        ∀ b ∈ (gs.flatMap fun g => g.nodes.map TUNode.tag), row a = row b ↔ a = b := by
  obtain ⟨hin, he⟩ := load_inv h
  rw [load_ok ho false hin he, ok_inj, Prod.mk.injEq] at h
  obtain ⟨rfl, -⟩ := h
  generalize hall : (gs.flatMap fun g => g.nodes.map TUNode.tag) = all
  have htags : (gs.map fun g => degreeTags false (finished (gs.map TUSource.label)
      (gs.flatMap fun g => g.nodes.map TUNode.tag) g)).flatMap TUGraph.tags = all.map (firsts all).idxOf := by
    rw [List.flatMap_map, ← hall, List.map_flatMap]
    simp only [List.map_map]
    rfl
  have hlen : (order (all.map (firsts all).idxOf)).length = all.dedup.length := by
    obtain ⟨h1, h2⟩ := ho (all.map (firsts all).idxOf)
    rw [← length_firsts]
    have hp : (order (all.map (firsts all).idxOf)).Perm (List.range (firsts all).length) := by
      refine (List.perm_ext_iff_of_nodup h1 List.nodup_range).mpr fun a => ?_
      rw [h2, List.mem_map, List.mem_range]
      constructor
      · rintro ⟨t, ht, rfl⟩
        exact List.idxOf_lt_length_iff.mpr (mem_firsts.mpr ht)
      · intro ha
        exact ⟨(firsts all)[a], mem_firsts.mp (List.getElem_mem ha), (nodup_firsts all).idxOf_getElem a ha⟩
    rw [hp.length_eq, List.length_range]
  refine ⟨fun a => hotRow (order (all.map (firsts all).idxOf)).length
    ((order (all.map (firsts all).idxOf)).idxOf ((firsts all).idxOf a)), ?_, ?_⟩
  · show (gs.map (loaded order false gs)).map TUGraph.features = _
    rw [List.map_map]
    apply List.map_congr_left
    intro g _
    unfold loaded
    dsimp only [Function.comp]
    rw [htags, hall]
    show (g.nodes.map _).map _ = _
    rw [List.map_map]
    rfl
  · intro a ha
    have hmem : ∀ b ∈ all, (firsts all).idxOf b ∈ order (all.map (firsts all).idxOf) := fun b hb =>
      ((ho _).2 _).mpr (List.mem_map_of_mem hb)
    have hlt : ∀ b ∈ all, (order (all.map (firsts all).idxOf)).idxOf ((firsts all).idxOf b) <
        (order (all.map (firsts all).idxOf)).length := fun b hb => List.idxOf_lt_length_iff.mpr (hmem b hb)
    refine ⟨?_, fun b hb => ⟨fun hr => ?_, fun e => by rw [e]⟩⟩
    · rw [← hlen]
      exact hotRow_isOneHot (hlt a ha)
    · have h1 := hotRow_inj (hlt a ha) hr
      have h2 := (List.idxOf_inj (hmem a ha)).mp h1
      exact (List.idxOf_inj (mem_firsts.mpr ha)).mp h2

/-- **C58** With `degree_as_tag`, if in every graph the last node is not isolated: every node has a one-hot row, as
wide as there are different degrees, and two nodes of any two graphs have the same row exactly if they have the same
degree. -/
theorem C58_degree_features (order : List Nat → List Nat) (ho : SetOrder order) (gs : List TUSource)
    (hlast : ∀ g ∈ gs, ∃ u, g.Adj (g.nodes.length - 1) u)
    (out : List TUGraph) (n : Nat) (h : loadData order (tuFile gs) true = .ok (out, n)) :
    ∃ row : Nat → List Nat,
      List.Forall₂ (fun (g : TUSource) (g' : TUGraph) =>
        g'.features = (List.range g.nodes.length).map fun i : Nat => row (degreeIn g'.edgeMat i)) gs out ∧
      ∃ all : List Nat, (∀ d, d ∈ all ↔ ∃ g' ∈ out, ∃ i : Nat, i < g'.features.length ∧ d = degreeIn g'.edgeMat i) ∧
      ∀ a ∈ all, IsOneHot all.dedup.length (row a) ∧ ∀ b ∈ all, row a = row b ↔ a = b := by
  obtain ⟨hin, he⟩ := load_inv h
  rw [load_ok ho true hin he, ok_inj, Prod.mk.injEq] at h
  obtain ⟨rfl, -⟩ := h
  have hdeg : ∀ g ∈ gs, nodeDegrees (loaded order true gs g) =
      (List.range g.nodes.length).map fun i : Nat => degreeIn (sourceEdges g) i := by
    intro g hg
    obtain ⟨u, hu⟩ := hlast g hg
    rw [← torchDegree_source g (hin g hg) hu]
    unfold nodeDegrees
    rw [(loaded_label order true gs g).2, if_neg]
    intro h0
    have := ((built_source g).edge_matrix g.adj_symm).1 _ _ |>.mpr hu
    rw [show (buildGraph 0 g.nodes []).edges ++ (buildGraph 0 g.nodes []).edges.map (fun e => (e.2, e.1)) =
      sourceEdges g from rfl, h0] at this
    cases this
  have hflen : ∀ g ∈ gs, (loaded order true gs g).features.length = g.nodes.length := by
    intro g hg
    show (((buildGraph 0 g.nodes []).degrees).map _).length = _
    rw [List.length_map]
    unfold NxGraph.degrees
    rw [List.length_map]
    exact (length_buildGraph g).mpr (hin g hg)
  generalize hall : ((gs.map (loaded order true gs)).flatMap nodeDegrees) = all
  have hout : degreeFeatures true (gs.map (loaded order true gs)) =
      gs.map fun g => { loaded order true gs g with
        features := (List.range g.nodes.length).map fun i : Nat =>
          hotRow (uniqueDegrees all).length ((uniqueDegrees all).idxOf (degreeIn (sourceEdges g) i)) } := by
    unfold degreeFeatures
    have henc := encode_aligned (uniqueDegrees all).length (fun d => (uniqueDegrees all).idxOf d)
      (gs.map (loaded order true gs)) nodeDegrees
    rw [hall] at henc
    rw [if_pos rfl, hall, henc]
    · rw [List.map_map]
      apply List.map_congr_left
      intro g hg
      simp only [Function.comp]
      rw [hdeg g hg, List.map_map]
      rfl
    · intro g' hg'
      obtain ⟨g, hg, rfl⟩ := List.mem_map.mp hg'
      rw [hdeg g hg, hflen g hg]
      simp
  refine ⟨fun d => hotRow (uniqueDegrees all).length ((uniqueDegrees all).idxOf d), ?_, all, ?_, ?_⟩
  · rw [hout, List.forall₂_map_right_iff, List.forall₂_same]
    intro g _
    dsimp only
    rw [(loaded_label order true gs g).2]
  · intro d
    rw [← hall, List.mem_flatMap, hout]
    constructor
    · rintro ⟨g', hg', hd⟩
      obtain ⟨g, hg, rfl⟩ := List.mem_map.mp hg'
      rw [hdeg g hg] at hd
      obtain ⟨i, hi, rfl⟩ := List.mem_map.mp hd
      refine ⟨_, List.mem_map_of_mem hg, i, by simpa using hi, ?_⟩
      dsimp only
      rw [(loaded_label order true gs g).2]
    · rintro ⟨g', hg', i, hi, rfl⟩
      obtain ⟨g, hg, rfl⟩ := List.mem_map.mp hg'
      refine ⟨_, List.mem_map_of_mem hg, ?_⟩
      rw [hdeg g hg]
      dsimp only
      rw [(loaded_label order true gs g).2]
      exact List.mem_map_of_mem (by simpa using hi)
  · intro a ha
    have hlt : ∀ b ∈ all, (uniqueDegrees all).idxOf b < (uniqueDegrees all).length := fun b hb =>
      List.idxOf_lt_length_iff.mpr (mem_uniqueDegrees.mpr hb)
    refine ⟨?_, fun b hb => ⟨fun hr => ?_, fun e => by rw [e]⟩⟩
    · rw [← length_uniqueDegrees]
      exact hotRow_isOneHot (hlt a ha)
    · exact (List.idxOf_inj (mem_uniqueDegrees.mpr ha)).mp (hotRow_inj (hlt a ha) hr)

/-- **C58** The graph handed to the lifting: as many nodes as in the file, edges between them, one label. -/
theorem C58_graphs (order : List Nat → List Nat) (ho : SetOrder order) (gs : List TUSource)
    (out : List TUGraph) (n : Nat) (h : loadData order (tuFile gs) false = .ok (out, n)) :
    List.Forall₂ (fun (g : TUSource) (g' : TUGraph) =>
      (s2vToPyG g').numNodes = g.nodes.length ∧ (s2vToPyG g').x.map List.length = some g.nodes.length ∧
      (∀ u v, (u, v) ∈ (s2vToPyG g').edgeIndex ↔ g.Adj u v) ∧
      (∀ e ∈ (s2vToPyG g').edgeIndex, e.1 < g.nodes.length ∧ e.2 < g.nodes.length) ∧
      ∃ c, c < n ∧ (s2vToPyG g').y = some [c]) gs out := by
  have hedges := C58_edges order ho gs false out n h
  obtain ⟨row, hrow, -⟩ := C58_tag_features order ho gs out n h
  obtain ⟨-, -, hlab⟩ := C58_labels order ho gs false out n h
  rw [List.forall₂_iff_get] at hedges ⊢
  obtain ⟨hlen, hedges⟩ := hedges
  refine ⟨hlen, fun i hi hi' => ?_⟩
  obtain ⟨e1, e2, -, -⟩ := hedges i hi hi'
  have hfeat : (out.get ⟨i, hi'⟩).features.length = (gs.get ⟨i, hi⟩).nodes.length := by
    have := congrArg (fun l => l[i]?) hrow
    simp only [List.getElem?_map, List.getElem?_eq_getElem hi, List.getElem?_eq_getElem hi', Option.map_some,
      Option.some_inj] at this
    have := congrArg List.length this
    simpa using this
  have hsym : ∀ u v, (u, v) ∈ (out.get ⟨i, hi'⟩).edgeMat → (v, u) ∈ (out.get ⟨i, hi'⟩).edgeMat := fun u v huv =>
    (e1 v u).mpr ((gs.get ⟨i, hi⟩).adj_symm _ _ ((e1 u v).mp huv))
  refine ⟨hfeat, by simp only [s2vToPyG, Option.map_some, hfeat], ?_, ?_, _, ?_, rfl⟩
  · intro u v
    rw [← e1]
    simp only [s2vToPyG, List.mem_map]
    constructor
    · rintro ⟨⟨a, b⟩, hab, he⟩
      rw [Prod.mk.injEq] at he
      have h1 := e2 a b hab
      have h2 := e2 b a (hsym a b hab)
      obtain ⟨rfl, rfl⟩ := he
      rw [Int.toNat_of_nonneg h1.1, Int.toNat_of_nonneg h2.1]
      exact hab
    · exact fun huv => ⟨_, huv, rfl⟩
  · intro e he
    simp only [s2vToPyG, List.mem_map] at he
    obtain ⟨⟨a, b⟩, hab, rfl⟩ := he
    have h1 := e2 a b hab
    have h2 := e2 b a (hsym a b hab)
    dsimp only
    omega
  · exact (hlab i i _ _ _ _ (List.getElem?_eq_getElem hi) (List.getElem?_eq_getElem hi)
      (List.getElem?_eq_getElem hi') (List.getElem?_eq_getElem hi')).2

namespace Fixtures

/-- Two graphs, one with attributes; labels 7 and 2, tags 5, 3 and 9. -/
def tuGraphs : List TUSource :=
  [{ label := 7, nodes := [{ tag := 5, neighbours := [1] }, { tag := 3, neighbours := [0, 2], attributes := 2 },
      { tag := 5, neighbours := [] }] },
   { label := 2, nodes := [{ tag := 3, neighbours := [1] }, { tag := 9, neighbours := [0] }] }]

end Fixtures

theorem setOrder_dedup : SetOrder List.dedup := fun l => ⟨List.nodup_dedup l, fun _ => List.mem_dedup⟩

/-- What is read from the two graphs. -/
example : (loadData List.dedup (tuFile Fixtures.tuGraphs) false).map (fun r => (r.1.map TUGraph.label, r.2)) =
      .ok ([0, 1], 2) ∧
    (loadData List.dedup (tuFile Fixtures.tuGraphs) false).map (fun r => r.1.map TUGraph.features) =
      .ok [[[1, 0, 0], [0, 1, 0], [1, 0, 0]], [[0, 1, 0], [0, 0, 1]]] ∧
    (loadData List.dedup (tuFile Fixtures.tuGraphs) true).map (fun r => r.1.map TUGraph.features) =
      .ok [[[1, 0], [0, 1], [1, 0]], [[1, 0], [1, 0]]] := by
  decide +kernel

/-- **C58** The condition on the last node cannot be dropped: a graph that ends with an isolated node has a degree too
few, so its last row is the first degree of the next graph, and the last graph of the file has a row too few. -/
theorem C58_isolated_last_node_shifts_degrees :
    ∃ gs : List TUSource, (∀ g ∈ gs, g.InRange ∧ g.HasEdge) ∧
      (loadData List.dedup (tuFile gs) true).map (fun r => r.1.map TUGraph.features) =
        .ok [[[1, 0], [1, 0], [1, 0]], [[0, 1], [1, 0]]] ∧
      (loadData List.dedup (tuFile gs) true).map (fun r => r.1.map TUGraph.edgeMat) =
        .ok [[(0, 1), (1, 0)], [(0, 1), (1, 2), (1, 0), (2, 1)]] := by
  refine ⟨[{ label := 0, nodes := [{ tag := 0, neighbours := [1] }, { tag := 0, neighbours := [0] },
      { tag := 0, neighbours := [] }] },
    { label := 0, nodes := [{ tag := 0, neighbours := [1] }, { tag := 0, neighbours := [0, 2] },
      { tag := 0, neighbours := [1] }] }], ?_, by decide +kernel, by decide +kernel⟩
  intro g hg
  simp only [List.mem_cons, List.not_mem_nil, or_false] at hg
  rcases hg with rfl | rfl
  · refine ⟨?_, ?_⟩
    · unfold TUSource.InRange; decide
    · unfold TUSource.HasEdge; decide
  · refine ⟨?_, ?_⟩
    · unfold TUSource.InRange; decide
    · unfold TUSource.HasEdge; decide

/-! ### The theorems on concrete cases -/

section Cases
open Fixtures
/-- The two graphs meet the hypotheses of the theorems; their last nodes have neighbours. -/
example : (∀ g ∈ tuGraphs, g.InRange ∧ g.HasEdge) ∧ ∀ g ∈ tuGraphs, ∃ u, g.Adj (g.nodes.length - 1) u := by
  refine ⟨?_, ?_⟩
  · obtain ⟨out, h⟩ : ∃ out, loadData List.dedup (tuFile tuGraphs) false = .ok out := ⟨_, rfl⟩
    exact (C58_readable_files List.dedup setOrder_dedup tuGraphs false).mp ⟨out, h⟩
  · intro g hg
    simp only [tuGraphs, List.mem_cons, List.not_mem_nil, or_false] at hg
    rcases hg with rfl | rfl
    · exact ⟨1, Or.inr ⟨1, rfl, _, rfl, by decide⟩⟩
    · exact ⟨0, Or.inr ⟨0, rfl, _, rfl, by decide⟩⟩
example := C58_labels List.dedup setOrder_dedup tuGraphs true _ _ rfl
example := C58_edges List.dedup setOrder_dedup tuGraphs true _ _ rfl
example := C58_tags List.dedup setOrder_dedup tuGraphs _ _ rfl
example := C58_tag_features List.dedup setOrder_dedup tuGraphs _ _ rfl
example := C58_graphs List.dedup setOrder_dedup tuGraphs _ _ rfl
end Cases

end Verif
