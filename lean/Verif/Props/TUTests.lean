import Verif.Model.TUTests
import Verif.Props.TU
import Verif.Props.TUDataset

/-!
# C108: the test of degrees as tags, and the graphs of a fold
-/

namespace Verif

/-! ### Helpers -/

theorem sum_hotRow {n i : Nat} (h : i < n) : (hotRow n i).sum = 1 := by
  have key : ∀ n : Nat, (hotRow n i).sum = if i < n then 1 else 0 := by
    intro n
    induction n with
    | zero => rfl
    | succ n ih =>
      unfold hotRow at ih ⊢
      rw [List.range_succ, List.map_append, List.sum_append, ih]
      by_cases h1 : i < n
      · have : n ≠ i := by omega
        simp [h1, this, show i < n + 1 by omega]
      · by_cases h2 : n = i
        · simp [h2]
        · simp [h1, h2, show ¬ i < n + 1 by omega]
  rw [key, if_pos h]

theorem foldl_max_le {l : List Nat} {m b : Nat} (hm : m ≤ b) (h : ∀ a ∈ l, a ≤ b) : l.foldl max m ≤ b := by
  induction l generalizing m with
  | nil => exact hm
  | cons a l ih => exact ih (max_le hm (h a (by simp))) fun a' h' => h a' (by simp [h'])

theorem le_foldl_max {l : List Nat} {m a : Nat} (h : a ∈ l ∨ a ≤ m) : a ≤ l.foldl max m := by
  induction l generalizing m with
  | nil => simpa using h
  | cons b l ih =>
    apply ih
    rcases h with h | h
    · rcases List.mem_cons.mp h with rfl | h
      · exact .inr (le_max_right _ _)
      · exact .inl h
    · exact .inr (h.trans (le_max_left _ _))

theorem rowArgmax_hotRow {n i : Nat} (h : i < n) : rowArgmax (hotRow n i) = i := by
  have h1 : 1 ∈ hotRow n i := List.mem_map.mpr ⟨i, List.mem_range.mpr h, by simp⟩
  have hmax : (hotRow n i).foldl max 0 = 1 := by
    apply le_antisymm
    · apply foldl_max_le (by omega)
      intro a ha
      obtain ⟨j, -, rfl⟩ := List.mem_map.mp ha
      split <;> omega
    · exact le_foldl_max (.inl h1)
  unfold rowArgmax
  rw [hmax]
  have hlt := List.idxOf_lt_length_iff.mpr h1
  have hget := List.getElem_idxOf hlt
  generalize (hotRow n i).idxOf 1 = j at hlt hget
  by_contra hne
  simp only [hotRow, List.getElem_map, List.getElem_range, if_neg hne] at hget
  omega

/-- The rows that a graph gets are those of its degrees exactly if all graphs but the last have as many degrees as
rows. -/
theorem encode_iff (w : Nat) (f : Nat → Nat) (gs : List TUGraph) (degs : TUGraph → List Nat)
    (hf : ∀ g ∈ gs, ∀ d ∈ degs g, f d < w) (hne : ∀ g ∈ gs, degs g ≠ [])
    (hle : ∀ g ∈ gs, (degs g).length ≤ g.features.length) :
    List.Forall₂ (fun g g' => g'.features.map rowArgmax = (degs g).map f) gs
      (encodeDegrees w ((gs.flatMap degs).map f) gs) ↔ ∀ g ∈ gs.dropLast, (degs g).length = g.features.length := by
  induction gs with
  | nil => simp [encodeDegrees]
  | cons g gs ih =>
    have ih := ih (fun g' h' => hf g' (by simp [h'])) (fun g' h' => hne g' (by simp [h'])) fun g' h' => hle g' (by simp [h'])
    have hg := hle g (by simp)
    have hback : ∀ l : List Nat, (∀ d ∈ l, f d < w) → ((l.map f).map (hotRow w)).map rowArgmax = l.map f := by
      intro l hl
      rw [List.map_map, List.map_map]
      exact List.map_congr_left fun d hd => rowArgmax_hotRow (hl d hd)
    unfold encodeDegrees
    rw [List.forall₂_cons]
    dsimp only
    cases gs with
    | nil =>
      have : (List.take g.features.length (List.map f (List.flatMap degs [g]))) = (degs g).map f := by
        rw [List.flatMap_cons, List.flatMap_nil, List.append_nil, List.take_of_length_le (by simpa using hg)]
      rw [this, hback _ (hf g (by simp))]
      simp [encodeDegrees]
    | cons g₂ gs =>
      rw [List.dropLast_cons_of_ne_nil (by simp), List.forall_mem_cons]
      have hrows : ((List.take g.features.length (List.map f (List.flatMap degs (g :: g₂ :: gs)))).map
          (hotRow w)).map rowArgmax = (degs g).map f ↔ (degs g).length = g.features.length := by
        rw [← List.map_take, hback _ fun d hd => by
          obtain ⟨g', hg', hd'⟩ := List.mem_flatMap.mp (List.mem_of_mem_take hd)
          exact hf g' hg' d hd']
        constructor
        · intro h
          have hlen := congrArg List.length h
          have h2 : 0 < (degs g₂).length := List.length_pos_iff.mpr (hne g₂ (by simp))
          simp only [List.length_map, List.length_take, List.flatMap_cons, List.length_append] at hlen
          omega
        · intro h
          rw [List.flatMap_cons, ← h, List.take_left]
      rw [hrows]
      refine and_congr_right fun h => ?_
      rw [← ih, List.flatMap_cons, List.map_append, List.drop_append_of_le_length (by simp [h]),
        List.drop_eq_nil_of_le (by simp [h]), List.nil_append]

theorem encode_rows (w : Nat) (corrs : List Nat) (gs : List TUGraph) :
    ∀ g ∈ encodeDegrees w corrs gs, ∀ row ∈ g.features, ∃ i ∈ corrs, row = hotRow w i := by
  induction gs generalizing corrs with
  | nil => simp [encodeDegrees]
  | cons g gs ih =>
    unfold encodeDegrees
    intro g' hg' row hrow
    rcases List.mem_cons.mp hg' with rfl | hg'
    · obtain ⟨i, hi, rfl⟩ := List.mem_map.mp hrow
      exact ⟨i, List.mem_of_mem_take hi, rfl⟩
    · obtain ⟨i, hi, rfl⟩ := ih _ g' hg' row hrow
      exact ⟨i, List.mem_of_mem_drop hi, rfl⟩

/-- A loop of assertions. -/
theorem assertions {A : Type} {check : A → Py Unit} {p : A → Prop} {l : List A}
    (h : ∀ a ∈ l, (p a → check a = .ok ()) ∧ (¬ p a → check a = .error .assertion)) :
    ((∀ a ∈ l, p a) → (mapE check l >>= fun _ => (.ok () : Py Unit)) = .ok ()) ∧
    ((¬ ∀ a ∈ l, p a) → (mapE check l >>= fun _ => (.ok () : Py Unit)) = .error .assertion) := by
  constructor
  · intro hp
    rw [mapE_ok (g := fun _ => ()) fun a ha => (h a ha).1 (hp a ha), ok_bind]
  · intro hp
    have : mapE check l = .error .assertion := by
      induction l with
      | nil => exact absurd (by simp) hp
      | cons a l ih =>
        rw [mapE_cons]
        by_cases ha : p a
        · rw [(h a (by simp)).1 ha, ok_bind, ih (fun b hb => h b (by simp [hb]))
            fun hall => hp fun b hb => by
              rcases List.mem_cons.mp hb with rfl | hb
              · exact ha
              · exact hall b hb]
          rfl
        · rw [(h a (by simp)).2 ha]
          rfl
    rw [this]
    rfl

theorem torchDegree_length (g : TUSource) (hin : g.InRange) :
    (torchDegree ((sourceEdges g).map Prod.fst)).length ≤ g.nodes.length ∧
    (g.HasEdge → torchDegree ((sourceEdges g).map Prod.fst) ≠ []) ∧
    (g.HasEdge → ((torchDegree ((sourceEdges g).map Prod.fst)).length = g.nodes.length ↔
      ∃ u, g.Adj (g.nodes.length - 1) u)) := by
  have hb := built_source g
  obtain ⟨hE, -, -⟩ := hb.edge_matrix g.adj_symm
  have hrange : ∀ a ∈ (sourceEdges g).map Prod.fst, 0 ≤ a ∧ a < g.nodes.length := by
    intro a ha
    obtain ⟨⟨x, y⟩, hxy, rfl⟩ := List.mem_map.mp ha
    rcases hb.edges _ _ ((hE x y).mp hxy) with h | ⟨n, hn, hv⟩
    · exact h
    · exact hin n hn _ hv
  obtain ⟨h1, h2, h3⟩ := foldl_max_int ((sourceEdges g).map Prod.fst) (-1)
  have hpos : g.HasEdge → 0 ≤ ((sourceEdges g).map Prod.fst).foldl max (-1) := by
    intro he
    obtain ⟨u, v, huv⟩ := g.hasEdge_iff.mp he
    have hm : u ∈ (sourceEdges g).map Prod.fst := List.mem_map.mpr ⟨(u, v), (hE _ _).mpr huv, rfl⟩
    have := h2 _ hm
    have := hrange _ hm
    omega
  have hlen : (torchDegree ((sourceEdges g).map Prod.fst)).length =
      (((sourceEdges g).map Prod.fst).foldl max (-1) + 1).toNat := by
    simp [torchDegree]
  refine ⟨?_, fun he => ?_, fun he => ⟨fun h => ?_, ?_⟩⟩
  · rw [hlen]
    rcases h3 with h3 | h3
    · omega
    · have := hrange _ h3
      omega
  · have := hpos he
    apply List.ne_nil_of_length_pos
    omega
  · have h0 := hpos he
    rcases h3 with h3 | h3
    · omega
    · rw [show ((sourceEdges g).map Prod.fst).foldl max (-1) = (g.nodes.length : Int) - 1 by omega] at h3
      obtain ⟨⟨x, u⟩, hxu, hx⟩ := List.mem_map.mp h3
      dsimp only at hx
      subst hx
      exact ⟨u, (hE _ _).mp hxu⟩
  · rintro ⟨u, hu⟩
    rw [torchDegree_source g hin hu]
    simp

/-! ### C108 -/

/-- **C108** `validate_degree_as_tag` on the graphs of a file that were loaded with degrees as tags: it passes exactly if
in every graph but the last of the file the last node has a neighbour, and is an `AssertionError` otherwise. -/
theorem C108_degree_test (order : List Nat → List Nat) (ho : SetOrder order) (gs : List TUSource) (out : List TUGraph)
    (n : Nat) (h : loadData order (tuFile gs) true = .ok (out, n)) :
    ((∀ g ∈ gs.dropLast, ∃ u, g.Adj (g.nodes.length - 1) u) → validateDegreeAsTag (out.map s2vToPyG) = .ok ()) ∧
    ((¬ ∀ g ∈ gs.dropLast, ∃ u, g.Adj (g.nodes.length - 1) u) →
      validateDegreeAsTag (out.map s2vToPyG) = .error .assertion) := by
  obtain ⟨hin, he⟩ := load_inv h
  rw [load_ok ho true hin he, ok_inj, Prod.mk.injEq] at h
  obtain ⟨rfl, -⟩ := h
  have hflen : ∀ g ∈ gs, (loaded order true gs g).features.length = g.nodes.length := by
    intro g hg
    show (((buildGraph 0 g.nodes []).degrees).map _).length = _
    rw [List.length_map]
    unfold NxGraph.degrees
    rw [List.length_map]
    exact (length_buildGraph g).mpr (hin g hg)
  have hdeg : ∀ g ∈ gs, nodeDegrees (loaded order true gs g) = torchDegree ((sourceEdges g).map Prod.fst) := by
    intro g hg
    unfold nodeDegrees
    rw [(loaded_label order true gs g).2, if_neg]
    intro h0
    have := (torchDegree_length g (hin g hg)).2.1 (he g hg)
    rw [h0] at this
    exact this rfl
  have hdrop : (gs.map (loaded order true gs)).dropLast = gs.dropLast.map (loaded order true gs) := by
    rw [List.map_dropLast]
  have hcond : (∀ g ∈ (gs.map (loaded order true gs)).dropLast, (nodeDegrees g).length = g.features.length) ↔
      ∀ g ∈ gs.dropLast, ∃ u, g.Adj (g.nodes.length - 1) u := by
    rw [hdrop, List.forall_mem_map]
    refine forall₂_congr fun g hg => ?_
    have hg := List.mem_of_mem_dropLast hg
    rw [hdeg g hg, hflen g hg]
    exact (torchDegree_length g (hin g hg)).2.2 (he g hg)
  have hself : ∀ g ∈ gs, ∀ e ∈ sourceEdges g, 0 ≤ e.1 := by
    intro g hg e hee
    have hb := built_source g
    obtain ⟨hE, -, -⟩ := hb.edge_matrix g.adj_symm
    rcases hb.edges _ _ ((hE e.1 e.2).mp hee) with h | ⟨n, hn, hv⟩
    · exact h.1
    · exact (hin g hg n hn _ hv).1
  generalize hL : gs.map (loaded order true gs) = L at *
  have hLdeg : ∀ g ∈ L, nodeDegrees g = torchDegree (((s2vToPyG g).edgeIndex).map fun e => (e.1 : Int)) := by
    intro g' hg'
    rw [← hL] at hg'
    obtain ⟨g, hg, rfl⟩ := List.mem_map.mp hg'
    rw [hdeg g hg]
    show _ = torchDegree (((loaded order true gs g).edgeMat.map _).map _)
    rw [(loaded_label order true gs g).2, List.map_map]
    congr 1
    apply List.map_congr_left
    intro e hee
    have := hself g hg e hee
    simp only [Function.comp]
    omega
  have hLne : ∀ g ∈ L, nodeDegrees g ≠ [] := by
    intro g' hg'
    rw [← hL] at hg'
    obtain ⟨g, hg, rfl⟩ := List.mem_map.mp hg'
    rw [hdeg g hg]
    exact (torchDegree_length g (hin g hg)).2.1 (he g hg)
  have hLle : ∀ g ∈ L, (nodeDegrees g).length ≤ g.features.length := by
    intro g' hg'
    rw [← hL] at hg'
    obtain ⟨g, hg, rfl⟩ := List.mem_map.mp hg'
    rw [hdeg g hg, hflen g hg]
    exact (torchDegree_length g (hin g hg)).1
  generalize hall : L.flatMap nodeDegrees = all at *
  have hlt : ∀ d ∈ all, (uniqueDegrees all).idxOf d < (uniqueDegrees all).length := fun d hd =>
    List.idxOf_lt_length_iff.mpr (mem_uniqueDegrees.mpr hd)
  have hiff := encode_iff (uniqueDegrees all).length (fun d => (uniqueDegrees all).idxOf d) L nodeDegrees
    (fun g hg d hd => hlt d (hall ▸ List.mem_flatMap.mpr ⟨g, hg, hd⟩)) hLne hLle
  rw [hcond, hall] at hiff
  have hout : degreeFeatures true L = encodeDegrees (uniqueDegrees all).length
      (all.map fun d => (uniqueDegrees all).idxOf d) L := by
    unfold degreeFeatures
    rw [if_pos rfl, hall]
  rw [hout]
  have hrows := encode_rows (uniqueDegrees all).length (all.map fun d => (uniqueDegrees all).idxOf d) L
  have hedges := (degreeFeatures_facts true L).2
  rw [hout] at hedges
  generalize encodeDegrees (uniqueDegrees all).length (all.map fun d => (uniqueDegrees all).idxOf d) L = out at *
  have hdegs : (out.map s2vToPyG).map (fun G => torchDegree (G.edgeIndex.map fun e => (e.1 : Int))) =
      L.map nodeDegrees := by
    rw [List.map_congr_left hLdeg, List.map_map]
    have := congrArg (List.map fun m : List (Int × Int) =>
      torchDegree ((m.map fun e => (e.1.toNat, e.2.toNat)).map fun e => (e.1 : Int))) hedges
    rw [List.map_map, List.map_map] at this
    exact this
  have hlen : L.length = out.length := by simpa using (congrArg List.length hedges).symm
  unfold validateDegreeAsTag
  rw [hdegs]
  dsimp only
  rw [show (L.map nodeDegrees).flatten = all by rw [← hall, List.flatMap_def], List.zip_map]
  have hzip : List.Forall₂ (fun g g' => g'.features.map rowArgmax =
      (nodeDegrees g).map fun d => (uniqueDegrees all).idxOf d) L out ↔
      ∀ a ∈ (out.zip L).map (Prod.map s2vToPyG nodeDegrees), ∃ x, a.1.x = some x ∧
        x.map rowArgmax = a.2.map fun d => (uniqueDegrees all).idxOf d := by
    rw [List.forall_mem_map, List.forall₂_iff_zip]
    constructor
    · rintro ⟨-, h⟩ ⟨g', g⟩ hm
      refine ⟨_, rfl, h ?_⟩
      rw [← List.zip_swap, List.mem_map] 
      exact ⟨_, hm, rfl⟩
    · intro h
      refine ⟨hlen, fun {g g'} hm => ?_⟩
      rw [← List.zip_swap, List.mem_map] at hm
      obtain ⟨⟨a, b⟩, hm, he⟩ := hm
      cases he
      obtain ⟨x, hx, hr⟩ := h _ hm
      cases hx
      exact hr
  rw [← hiff, hzip]
  refine assertions fun a ha => ?_
  obtain ⟨⟨g', g⟩, hm, rfl⟩ := List.mem_map.mp ha
  have hg' : g' ∈ out := (List.of_mem_zip hm).1
  have hrow : ∀ row ∈ g'.features, row.length = (uniqueDegrees all).length ∧ row.sum = 1 := by
    intro row hr
    obtain ⟨i, hi, rfl⟩ := hrows g' hg' row hr
    obtain ⟨d, hd, rfl⟩ := List.mem_map.mp hi
    exact ⟨by simp [hotRow], sum_hotRow (hlt d hd)⟩
  have hcheck : checkTags (uniqueDegrees all) (Prod.map s2vToPyG nodeDegrees (g', g)) =
      pyAssert (decide (g'.features.map rowArgmax = (nodeDegrees g).map fun d => (uniqueDegrees all).idxOf d)) := by
    show (pyAssert _ >>= fun _ => pyAssert _ >>= fun _ => pyAssert _) = _
    rw [show (g'.features.all fun row => decide (row.length = (uniqueDegrees all).length)) = true from
      List.all_eq_true.mpr fun row hr => decide_eq_true (hrow row hr).1,
      show (g'.features.all fun row => decide (row.sum = 1)) = true from
      List.all_eq_true.mpr fun row hr => decide_eq_true (hrow row hr).2]
    rfl
  rw [hcheck]
  constructor
  · rintro ⟨x, hx, hr⟩
    cases hx
    exact (pyAssert_eq_ok (u := ())).mpr (decide_eq_true hr)
  · intro hno
    rw [decide_eq_false (p := g'.features.map rowArgmax = (nodeDegrees g).map fun d => (uniqueDegrees all).idxOf d)
      fun hr => hno ⟨_, rfl, hr⟩]
    rfl

theorem getAt_filterMap {A : Type} {l : List A} {idx : List Nat} (h : ∀ i ∈ idx, i < l.length) :
    mapE (getAt l) idx = .ok (idx.filterMap fun i => l[i]?) := by
  induction idx with
  | nil => rfl
  | cons i idx ih =>
    have hi := h i (by simp)
    rw [mapE_cons, getAt_eq_ok.mpr (List.getElem?_eq_getElem hi), ok_bind, ih fun j hj => h j (by simp [hj]), ok_bind,
      List.filterMap_cons_some (List.getElem?_eq_getElem hi)]

theorem filterMap_range {A : Type} (l : List A) : ((List.range l.length).filterMap fun i => l[i]?) = l := by
  induction l with
  | nil => rfl
  | cons a l ih =>
    rw [List.length_cons, List.range_succ_eq_map,
      List.filterMap_cons_some (f := fun i => (a :: l)[i]?) (b := a) rfl, List.filterMap_map]
    exact congrArg (a :: ·) ih

theorem flatMap_range_getD {A B : Type} (l : List A) (d : A) (f : A → List B) (n : Nat) (h : l.length = n) :
    ((List.range n).flatMap fun i => f (l.getD i d)) = l.flatMap f := by
  subst h
  induction l with
  | nil => rfl
  | cons a l ih =>
    rw [List.length_cons, List.range_succ_eq_map, List.flatMap_cons, List.flatMap_cons, List.flatMap_map]
    exact congrArg (f a ++ ·) ih

/-- **C108** `separate_data` divides the graphs in two for each of ten folds, and every graph is in the second part for
one fold only; the parts are those of `get_fold_indices`. Other folds are an `AssertionError`. -/
theorem C108_folds (skf : Nat → List Nat → Py (List (List Nat × List Nat))) (hskf : TenFolds skf) (graphs : List TUGraph)
    (seed : Nat) (folds : List (List Nat × List Nat)) (hok : skf seed (graphs.map TUGraph.label) = .ok folds) :
    (∃ train test : Nat → List TUGraph,
      (∀ f : Nat, f < 10 → separateData skf graphs seed f = .ok (train f, test f) ∧ (train f ++ test f).Perm graphs ∧
        ∃ p, getFoldIndices skf (graphs.map fun g => (s2vToPyG g).y) seed f = .ok p ∧
          p.1.map (fun i => graphs[i]?) = (train f).map some ∧ p.2.map (fun i => graphs[i]?) = (test f).map some) ∧
      ((List.range 10).flatMap test).Perm graphs) ∧
    ∀ fold : Int, ¬ (0 ≤ fold ∧ fold < 10) → separateData skf graphs seed fold = .error .assertion := by
  have hcount := hskf.count _ _ _ hok
  have hdiv := hskf.divides _ _ _ hok
  have honce := hskf.once _ _ _ hok
  rw [List.length_map] at hdiv honce
  have hsome : ∀ idx : List Nat, (∀ i ∈ idx, i < graphs.length) →
      idx.map (fun i => graphs[i]?) = (idx.filterMap fun i => graphs[i]?).map some := by
    intro idx
    induction idx with
    | nil => exact fun _ => rfl
    | cons i idx ih =>
      intro h
      have hi := h i (by simp)
      rw [List.filterMap_cons_some (List.getElem?_eq_getElem hi), List.map_cons, List.map_cons,
        ih fun j hj => h j (by simp [hj]), List.getElem?_eq_getElem hi]
  refine ⟨⟨fun f => (folds.getD f ([], [])).1.filterMap fun i => graphs[i]?,
    fun f => (folds.getD f ([], [])).2.filterMap fun i => graphs[i]?, fun f hf => ?_, ?_⟩, fun fold hno => ?_⟩
  · dsimp only
    have hget : folds[f]? = some (folds.getD f ([], [])) := by
      rw [List.getD_eq_getElem?_getD, List.getElem?_eq_getElem (by omega)]
      rfl
    have hp := hdiv _ (List.mem_of_getElem? hget)
    generalize folds.getD f ([], []) = p at hget hp ⊢
    have hlt : ∀ i ∈ p.1 ++ p.2, i < graphs.length := fun i hi => List.mem_range.mp (hp.mem_iff.mp hi)
    have ht : (decide ((0 : Int) ≤ f) && decide ((f : Int) < 10)) = true := by simp; omega
    refine ⟨?_, ?_, p, ?_, hsome p.1 fun i hi => hlt i (List.mem_append_left _ hi),
      hsome p.2 fun i hi => hlt i (List.mem_append_right _ hi)⟩
    · unfold separateData
      rw [ht, hok]
      show (getAt folds f >>= _) = _
      rw [getAt_eq_ok.mpr hget, ok_bind, getAt_filterMap (idx := p.1) fun i hi => hlt i (by simp [hi]), ok_bind,
        getAt_filterMap (idx := p.2) fun i hi => hlt i (by simp [hi])]
      rfl
    · have := hp.filterMap fun i => graphs[i]?
      rw [filterMap_range, List.filterMap_append] at this
      exact this
    · unfold getFoldIndices
      rw [ht]
      show (mapE itemOf _ >>= _) = _
      rw [mapE_map, mapE_ok (f := fun g => itemOf (s2vToPyG g).y) (g := TUGraph.label) fun g _ => rfl, ok_bind, hok]
      exact getAt_eq_ok.mpr hget
  · rw [flatMap_range_getD folds ([], []) (fun p => p.2.filterMap fun i => graphs[i]?) 10 hcount]
    have := honce.filterMap fun i => graphs[i]?
    rw [filterMap_range, List.filterMap_flatMap] at this
    exact this
  · unfold separateData
    rw [show (decide (0 ≤ fold) && decide (fold < 10)) = false by
      rw [Bool.and_eq_false_iff, decide_eq_false_iff_not, decide_eq_false_iff_not]; tauto]
    rfl

/-- **C108** `separate_data_given_split` gives the graphs that the files list, in that order; the fold is one of −1, …, 9,
and the files of fold −1 have number 0. -/
theorem C108_given_split (files : Int → Option (List Nat × List Nat)) (graphs : List TUGraph) (fold : Int)
    (train test : List TUGraph) :
    separateGivenSplit files graphs fold = .ok (train, test) ↔ -1 ≤ fold ∧ fold < 10 ∧ ∃ ids ids',
      files (fold + 1) = some (ids, ids') ∧ ids.map (fun i => graphs[i]?) = train.map some ∧
      ids'.map (fun i => graphs[i]?) = test.map some := by
  have key : ∀ (ids : List Nat) (l : List TUGraph), mapE (getAt graphs) ids = .ok l ↔
      ids.map (fun i => graphs[i]?) = l.map some := by
    intro ids
    induction ids with
    | nil =>
      intro l
      rw [mapE_nil, ok_inj]
      cases l <;> simp
    | cons i ids ih =>
      intro l
      rw [mapE_cons, bind_eq_ok]
      constructor
      · rintro ⟨g, hg, h⟩
        obtain ⟨l', hl', h⟩ := bind_eq_ok.mp h
        cases h
        rw [List.map_cons, List.map_cons, (ih l').mp hl', getAt_eq_ok.mp hg]
      · intro h
        cases l with
        | nil => cases h
        | cons g l =>
          rw [List.map_cons, List.map_cons, List.cons.injEq] at h
          exact ⟨g, getAt_eq_ok.mpr h.1, bind_eq_ok.mpr ⟨l, (ih l).mpr h.2, rfl⟩⟩
  unfold separateGivenSplit
  rw [bind_eq_ok]
  constructor
  · rintro ⟨u, hu, h⟩
    have hu := pyAssert_eq_ok.mp hu
    rw [Bool.and_eq_true, decide_eq_true_iff, decide_eq_true_iff] at hu
    refine ⟨hu.1, hu.2, ?_⟩
    split at h
    · cases h
    · rename_i p hp
      obtain ⟨tr, htr, h⟩ := bind_eq_ok.mp h
      obtain ⟨te, hte, h⟩ := bind_eq_ok.mp h
      cases h
      exact ⟨p.1, p.2, hp, (key _ _).mp htr, (key _ _).mp hte⟩
  · rintro ⟨h1, h2, ids, ids', hf, htr, hte⟩
    refine ⟨(), pyAssert_eq_ok.mpr (by rw [Bool.and_eq_true, decide_eq_true_iff, decide_eq_true_iff]; exact ⟨h1, h2⟩), ?_⟩
    rw [hf]
    exact bind_eq_ok.mpr ⟨train, (key _ _).mpr htr, bind_eq_ok.mpr ⟨test, (key _ _).mpr hte, rfl⟩⟩

/-- **C108** The test does not notice that the last graph of a file has a row too few: here its last node is isolated,
and it has three nodes and two rows. -/
theorem C108_missing_row_not_noticed :
    ∃ gs : List TUSource, gs.map (fun g => g.nodes.length) = [2, 3] ∧ ∃ out n,
      loadData List.dedup (tuFile gs) true = .ok (out, n) ∧ out.map (fun g => g.features.length) = [2, 2] ∧
      validateDegreeAsTag (out.map s2vToPyG) = .ok () :=
  ⟨[⟨0, [⟨0, [1], 0⟩, ⟨0, [0], 0⟩]⟩, ⟨1, [⟨0, [1], 0⟩, ⟨0, [0], 0⟩, ⟨0, [], 0⟩]⟩], rfl, _, _, rfl,
    by decide +kernel, by decide +kernel⟩

/-! ### Concrete cases -/

section Cases
open Fixtures

/-- The test passes on two graphs, and fails if the first ends with an isolated node. -/
example : (loadData List.dedup (tuFile tuGraphs) true >>= fun r => validateDegreeAsTag (r.1.map s2vToPyG)) = .ok () ∧
    (loadData List.dedup (tuFile [⟨1, [⟨0, [1], 0⟩, ⟨0, [0], 0⟩, ⟨0, [], 0⟩]⟩, ⟨0, [⟨0, [1], 0⟩, ⟨0, [0], 0⟩]⟩]) true >>=
      fun r => validateDegreeAsTag (r.1.map s2vToPyG)) = .error .assertion := by
  decide +kernel
example := C108_degree_test List.dedup setOrder_dedup tuGraphs _ _ rfl
/-- Twelve graphs in ten folds: graphs 1 and 11 are the second part of fold 1. -/
def twelve : List TUGraph := (List.range 12).map fun i => ⟨[], i, [], [], []⟩
example := C108_folds tenParts tenParts_ok twelve 7 _ rfl
example : (separateData tenParts twelve 7 1).map (fun r => r.2.map TUGraph.label) = .ok [1, 11] ∧
    (separateData tenParts twelve 7 1).map (fun r => r.1.map TUGraph.label) = .ok [0, 2, 3, 4, 5, 6, 7, 8, 9, 10] := by
  decide +kernel
/-- Files numbered from 0 are accepted for fold −1, although the message says that folds are 0 to 9. -/
example : (separateGivenSplit (fun n => if n = 0 then some ([2, 0], [1]) else none) twelve (-1)).map
    (fun r => (r.1.map TUGraph.label, r.2.map TUGraph.label)) = .ok ([2, 0], [1]) := by
  decide +kernel
end Cases

end Verif
