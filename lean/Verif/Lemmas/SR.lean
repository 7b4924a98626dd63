import Verif.Spec.SR
import Verif.Props.TUDataset
import Verif.Props.Perm

/-!
# Datasets of strongly regular graphs
-/

namespace Verif

section
variable {F L : Type}

theorem clique_stored' {g : Gudhi} (hg : g.Ok) (agg : List F → F) {k : Nat} (hk : 1 ≤ k) (down : Bool)
    {G : GraphData F L} {x : List F} (hG : G.Ok x) (hl : complexLabel G.y = G.y) :
    ∃ comp, cliqueComplex g agg G.x G.edgeIndex G.numNodes k G.y down = .ok comp ∧ StoredAs G k comp ∧
      ∀ s, IsClique G.edgeIndex G.numNodes s → s.length ≤ k + 1 → s.length ≤ comp.dimension + 1 := by
  obtain ⟨⟨comp, h1, h2, -, h4⟩, -⟩ := C28_lifting_succeeds g hg agg x _ _ k G.y down hG.edges hG.pos hG.rows hG.labels
  have H := holds_expanded hg hG.edges k
  obtain ⟨t, comp', e1, e2, e3, -⟩ := lifted_of_holds agg x G.y down H hG.pos hG.rows hG.labels
  obtain ⟨e4, -⟩ := liftTree_ok (agg := agg) (y := G.y) (down := down) H hG.pos hG.rows hG.labels
  have e5 : cliqueComplex g agg (some x) G.edgeIndex G.numNodes k G.y down = .ok comp' := e2
  rw [h1] at e5
  cases ok_inj.mp e5
  rw [hG.features]
  refine ⟨comp, h1, ⟨h2, ?_, by omega, ?_⟩, ?_⟩
  · intro d hd
    have hlt : d < (g.expanded (insertions G.edgeIndex G.numNodes) k).dims := by have := e3.size; omega
    rw [e3.count d hlt]
    have hb := buildTables_ok H hG.pos
    rw [e1] at hb
    cases ok_inj.mp hb
    unfold Tables.level
    rw [tab_get _ hlt]
    exact List.length_pos_iff.mpr (cellsOf_ne_nil H hlt)
  · rw [e2] at e4
    cases ok_inj.mp e4
    exact hl
  · intro s hs hlen
    have hm : s ∈ (g.expanded (insertions G.edgeIndex G.numNodes) k).simplices :=
      (mem_expanded hg hG.edges).mpr ⟨hs, by omega⟩
    rw [e3.size]
    exact length_le_dims hm

/-- The clique complex of dimension `d` comes from a clique of `d + 1` nodes. -/
theorem clique_reached {g : Gudhi} (hg : g.Ok) (agg : List F → F) {k : Nat} (down : Bool) {G : GraphData F L} {x : List F}
    (hG : G.Ok x) {comp : Complex F L} (h : cliqueComplex g agg G.x G.edgeIndex G.numNodes k G.y down = .ok comp) :
    ∃ s, IsClique G.edgeIndex G.numNodes s ∧ s.length = comp.dimension + 1 := by
  have H := holds_expanded hg hG.edges k
  obtain ⟨t, comp', e1, e2, e3, -⟩ := lifted_of_holds agg x G.y down H hG.pos hG.rows hG.labels
  rw [hG.features] at h
  have e5 : cliqueComplex g agg (some x) G.edgeIndex G.numNodes k G.y down = .ok comp' := e2
  rw [h] at e5
  cases ok_inj.mp e5
  have hlt : comp.dimension < (g.expanded (insertions G.edgeIndex G.numNodes) k).dims := by have := e3.size; omega
  obtain ⟨s, hs⟩ := List.exists_mem_of_ne_nil _ (cellsOf_ne_nil H hlt)
  obtain ⟨h1, h2⟩ := (mem_cellsOf H).mp hs
  exact ⟨s, ((mem_expanded hg hG.edges).mp h1).1, h2⟩

theorem ring_stored' [DecidableEq F] {g : Gudhi} (hg : g.Ok) {lib : RingLib} (hlib : lib.Ok) (agg : List F → F)
    (maxK : Nat) (down : Bool) {G : GraphData F L} {x : List F} (hG : G.Ok x) (hS : G.Simple)
    (hl : complexLabel G.y = G.y) :
    ∃ comp, ringComplex g lib agg G.x G.edgeIndex G.edgeAttr G.numNodes G.y maxK down true true = .ok comp ∧
      StoredAs G 2 comp := by
  have hR : (⟨G.numNodes, x, G.edgeIndex, G.edgeAttr, G.y⟩ : RGraph F L).Ok :=
    ⟨hG.pos, hG.rows, hG.edges, hS.noLoops, hS.attr, hG.labels⟩
  obtain ⟨x1, l1, r1, d1⟩ := RGraph.lift_ok (agg := agg) (maxK := maxK) (down := down) (initEdges := true)
    (initRings := true) hg hlib hR rfl rfl
  have rd := ringData_of hg hlib hR.edges hR.pos maxK
  have f := ring_facts (down := down) (vy := vertexLabels G.y) (y := complexLabel G.y) rd r1 d1.some
  rw [hG.features]
  refine ⟨_, l1, f.ready, f.cells, f.small, hl⟩

theorem RawGraph.Plain.ok {G : RawGraph} (h : G.Plain) (one : F) :
    (srGraph one G : GraphData F L).Ok (List.replicate G.2 one) where
  features := rfl
  pos := h.pos
  rows := by simp [srGraph]
  edges := h.edges
  labels := by intro l hl; cases hl

theorem RawGraph.Plain.simple {G : RawGraph} (h : G.Plain) (one : F) : (srGraph one G : GraphData F L).Simple where
  nodup := h.nodup
  both := h.both
  noLoops := h.noLoops
  label := by intro l hl; cases hl
  attr := by intro a ha; cases ha

/-! ### Lifting deeper than the graph reaches -/

/-- A library that makes the expansion to dimension `k` of some insertions by expanding them to dimension `k'`. -/
def Gudhi.deeper (g : Gudhi) (ins : List (List Nat)) (k k' : Nat) : Gudhi where
  inserted := g.inserted
  expanded := fun i j => if i = ins ∧ j = k then g.expanded ins k' else g.expanded i j

theorem Gudhi.deeper_ok {g : Gudhi} (hg : g.Ok) {ins : List (List Nat)} {k k' : Nat}
    (h : ∀ s, s ∈ (g.expanded ins k').simplices ↔ s ∈ (g.expanded ins k).simplices) : (g.deeper ins k k').Ok where
  nodup := hg.nodup
  mem := hg.mem
  cofacesNodup := hg.cofacesNodup
  cofaces := hg.cofaces
  nodup' := by
    intro i j
    unfold Gudhi.deeper
    simp only
    split
    · exact hg.nodup' _ _
    · exact hg.nodup' _ _
  mem' := by
    intro i j s
    unfold Gudhi.deeper
    simp only
    split
    · next e => rw [h, e.1, e.2]; exact hg.mem' _ _ _
    · exact hg.mem' _ _ _
  cofacesNodup' := by
    intro i j
    unfold Gudhi.deeper
    simp only
    split
    · exact hg.cofacesNodup' _ _
    · exact hg.cofacesNodup' _ _
  cofaces' := by
    intro i j
    unfold Gudhi.deeper
    simp only
    split
    · exact hg.cofaces' _ _
    · exact hg.cofaces' _ _

end

section
variable {R L : Type} [AddCommGroup R] [DecidableEq R]

/-- The complex of a graph that has been lifted to a dimension `k'` and does not reach beyond `k` is, up to renumbering,
the one lifted to dimension `k`. -/
theorem lifted_deeper {g g' : Gudhi} (hg : g.Ok) (hg' : g'.Ok) {lib lib' : RingLib} (hlib : lib.Ok) (hlib' : lib'.Ok)
    {agg : List R → R} (hperm : ∀ l l' : List R, l.Perm l' → agg l = agg l') {G : RawGraph} (hG : G.Plain) (one : R)
    {k k' : Nat} (hk : 1 ≤ k) (hkk : k ≤ k') (rings : Option Nat) (down : Bool) {c' : Complex R L}
    (hc : (srGraph one G : GraphData R L).lifted g' lib' agg k' rings down = .ok c') (hd : c'.dimension ≤ k) :
    ∃ c φ, (srGraph one G : GraphData R L).lifted g lib agg k rings down = .ok c ∧ Relabels c.view c'.view φ ∧
      c.Ready ∧ c'.Ready ∧ 0 < c.cellsIn 0 := by
  have hx := hG.ok (F := R) (L := L) one
  cases rings with
  | none =>
    obtain ⟨comp, h1, -, h3⟩ := clique_stored' hg' agg (Nat.le_trans hk hkk) down hx rfl
    have hc' : cliqueComplex g' agg (srGraph one G : GraphData R L).x (srGraph one G : GraphData R L).edgeIndex
      (srGraph one G : GraphData R L).numNodes k' (srGraph one G : GraphData R L).y down = .ok c' := hc
    rw [h1] at hc'
    cases hc'
    have hset : ∀ s, s ∈ (g'.expanded (insertions G.1 G.2) k').simplices ↔
        s ∈ (g'.expanded (insertions G.1 G.2) k).simplices := by
      intro s
      rw [mem_expanded hg' hG.edges, mem_expanded hg' hG.edges]
      refine and_congr_right fun hs => ⟨fun h => ?_, fun h => by omega⟩
      have := h3 s hs (by omega)
      omega
    have hπ : GraphIso G.1 G.1 G.2 (List.replicate G.2 one) (List.replicate G.2 one) id :=
      ⟨fun v hv => hv, fun u v _ _ h => h, fun u v _ _ => Iff.rfl, fun v _ => rfl⟩
    obtain ⟨c, c1, e1, e2, r1, r2, h0, φ, hφ⟩ := clique_relabels (L := L) hg (Gudhi.deeper_ok hg' hset) hperm hπ hG.edges
      hG.edges hG.pos (by simp) (by simp) k (y := none) (y' := none) (by simp) (by simp) down
    have : cliqueComplex (g'.deeper (insertions G.1 G.2) k k') agg (some (List.replicate G.2 one)) G.1 G.2 k
        (none : Option (List L)) down = cliqueComplex g' agg (some (List.replicate G.2 one)) G.1 G.2 k' none down := by
      unfold cliqueComplex
      simp [Gudhi.deeper]
    rw [this] at e2
    have h1' : cliqueComplex g' agg (some (List.replicate G.2 one)) G.1 G.2 k' (none : Option (List L)) down = .ok c' := h1
    rw [h1'] at e2
    cases e2
    exact ⟨c, φ, e1, hφ, r1, r2, h0⟩
  | some size =>
    have hS := hG.simple (F := R) (L := L) one
    have o1 : (⟨G.2, List.replicate G.2 one, G.1, none, none⟩ : RGraph R L).Ok :=
      ⟨hx.pos, hx.rows, hx.edges, hS.noLoops, hS.attr, hx.labels⟩
    obtain ⟨c, c1, h1, h2, f1, f2, φ, hφ⟩ := ring_relabels (maxK := size) (down := down) (initEdges := true)
      (initRings := true) hg hg' hlib hlib' hperm o1 o1 ⟨rfl, rfl, id, ⟨fun v hv => hv, fun u v _ _ h => h,
        fun u v _ _ => Iff.rfl, fun v _ => rfl⟩, by intro a a' h; cases h⟩
    have hc' : (⟨G.2, List.replicate G.2 one, G.1, none, none⟩ : RGraph R L).lift g' lib' agg size down true true =
      .ok c' := hc
    rw [h2] at hc'
    cases hc'
    exact ⟨c, φ, h1, relabels_of_cells f1.ready f2.ready hφ, f1.ready, f2.ready, f1.cells 0 (Nat.zero_le _)⟩

end

/-! ### Processing -/

section
variable {F L : Type} [DecidableEq F] [DecidableEq L]

omit [DecidableEq L] in
theorem lifts_plain {g : Gudhi} (hg : g.Ok) {lib : RingLib} (hlib : lib.Ok) (agg : List F → F) (one : F) {k : Nat}
    (hk : 1 ≤ k) (rings : Option Nat) (hr : ∀ size, rings = some size → k = 2) (down : Bool) {G : RawGraph}
    (hG : G.Plain) :
    ∃ comp, (srGraph one G : GraphData F L).lifted g lib agg k rings down = .ok comp ∧ StoredAs (srGraph one G) k comp := by
  have hx := hG.ok (F := F) (L := L) one
  cases rings with
  | none =>
    obtain ⟨comp, h1, h2, -⟩ := clique_stored' hg agg hk down hx rfl
    exact ⟨comp, h1, h2⟩
  | some size =>
    cases hr size rfl
    exact ring_stored' hg hlib agg size down hx (hG.simple one) rfl

theorem srProcess_ok {g : Gudhi} (hg : g.Ok) {lib : RingLib} (hlib : lib.Ok) (agg : List F → F) (width : F → Nat)
    {w : Nat} (hagg : ∀ l : List F, l ≠ [] → (∀ r ∈ l, width r = w) → width (agg l) = w) (one : F) (hone : width one = w)
    {k : Nat} (hk : 1 ≤ k) (rings : Option Nat) (hr : ∀ size, rings = some size → k = 2) (down : Bool)
    {data : List RawGraph} (hd : ∀ G ∈ data, G.Plain) (hne : data ≠ []) :
    ∃ comps st m, List.Forall₂ (fun G c => (srGraph one G : GraphData F L).lifted g lib agg k rings down = .ok c) data comps ∧
      Storable comps m ∧ collate comps m = .ok st ∧ IsLargest (comps.map Complex.dimension) (some m) ∧ m ≤ k ∧
      srProcess g lib agg width (data.map (srGraph one)) k rings down = .ok (st, m) := by
  obtain ⟨comps, hc⟩ := forall₂_of_forall (fun G hG => lifts_plain (L := L) hg hlib agg one hk rings hr down (hd G hG))
  have hstored : ∀ c ∈ comps, ∃ G ∈ data, StoredAs (srGraph one G) k c := by
    intro c hm
    obtain ⟨G, hG, h1⟩ := forall₂_mem hc.flip hm
    exact ⟨G, hG, h1.2⟩
  have hcne : comps ≠ [] := by
    rintro rfl
    exact hne (List.forall₂_nil_right_iff.mp hc)
  have hy : ∀ c ∈ comps, c.y = none := by
    intro c hm
    obtain ⟨G, -, h1⟩ := hstored c hm
    rw [h1.label]
    rfl
  have hmap : List.Forall₂ (fun (D : GraphData F L) c => D.lifted g lib agg k rings down = .ok c)
      (data.map (srGraph one)) comps := by
    rw [List.forall₂_map_left_iff]
    exact hc.imp fun _ _ h => h.1
  have hgr : ∀ D ∈ data.map (srGraph (F := F) (L := L) one), ∃ x, D.Ok x ∧ D.Simple ∧ (∀ r ∈ x, width r = w) ∧
      D.edgeAttr = none := by
    intro D hD
    obtain ⟨G, hG, rfl⟩ := List.mem_map.mp hD
    refine ⟨_, (hd G hG).ok one, (hd G hG).simple one, ?_, rfl⟩
    intro r hr'
    rw [List.eq_of_mem_replicate hr', hone]
  obtain ⟨r, h1, h2, h3⟩ : ∃ r : Converted F L,
      srConvert g lib agg width (data.map (srGraph one)) k rings down = .ok r ∧ r.complexes = comps ∧
      IsLargest (comps.map Complex.dimension) r.dimension := by
    cases rings with
    | none =>
      obtain ⟨r, h1, -, -⟩ := C35_clique_datasets_convert g hg agg width w hagg (data.map (srGraph (L := L) one)) k hk down
        (fun D hD => by obtain ⟨x, a, -, b, -⟩ := hgr D hD; exact ⟨x, a, b⟩)
      obtain ⟨h2, h3, -⟩ := (C35_clique_conversion ..).mp h1
      have : r.complexes = comps := by
        have e1 := mapE_eq_ok_iff.mpr h2
        have e2 : mapE (fun D : GraphData F L => cliqueComplex g agg D.x D.edgeIndex D.numNodes k D.y down)
          (data.map (srGraph one)) = .ok comps := mapE_eq_ok_iff.mpr hmap
        rw [e1] at e2
        exact ok_inj.mp e2
      exact ⟨r, h1, this, this ▸ h3.largest⟩
    | some size =>
      obtain ⟨r, h1, -, -⟩ := C35_ring_datasets_convert g hg lib hlib agg width w w hagg size down true
        (data.map (srGraph (L := L) one)) (fun D hD => by
          obtain ⟨x, a, b, c, d⟩ := hgr D hD
          exact ⟨x, a, b, c, .inl ⟨d, rfl⟩⟩)
      obtain ⟨h2, -, h3, -⟩ := (C35_ring_conversion ..).mp h1
      have : r.complexes = comps := by
        have e1 := mapE_eq_ok_iff.mpr h2
        have e2 : mapE (fun D : GraphData F L => ringComplex g lib agg D.x D.edgeIndex D.edgeAttr D.numNodes D.y size down
          true true) (data.map (srGraph one)) = .ok comps := mapE_eq_ok_iff.mpr hmap
        rw [e1] at e2
        exact ok_inj.mp e2
      exact ⟨r, h1, this, this ▸ h3.largest⟩
  obtain ⟨m, hm⟩ : ∃ m, r.dimension = some m := by
    cases hr' : r.dimension with
    | none => rw [hr'] at h3; exact absurd (List.map_eq_nil_iff.mp h3) hcne
    | some m => exact ⟨m, rfl⟩
  rw [hm] at h3
  have hmk : m ≤ k := by
    obtain ⟨c, hcm, rfl⟩ := List.mem_map.mp h3.1
    obtain ⟨G, -, h4⟩ := hstored c hcm
    exact h4.small
  obtain ⟨st, hst⟩ := (C36_storing_succeeds comps m).mpr ⟨hcne, fun c hcm l hl => by
    rw [hy c hcm] at hl
    exact absurd hl (by simp), .inl ⟨comps.head hcne, List.head?_eq_some_head hcne, hy _ (List.head_mem hcne)⟩⟩
  refine ⟨comps, st, m, hc.imp fun _ _ h => h.1, ⟨?_, ?_, ?_, ?_⟩, hst, h3, hmk, ?_⟩
  · intro c hcm; obtain ⟨G, -, h4⟩ := hstored c hcm; exact h4.ready
  · intro c hcm; obtain ⟨G, -, h4⟩ := hstored c hcm; exact h4.full
  · intro c hcm; exact h3.2 _ (List.mem_map.mpr ⟨c, hcm, rfl⟩)
  · intro c hcm c' hcm'; rw [hy c hcm, hy c' hcm']
  · unfold srProcess
    rw [h1, ok_bind]
    have ha : pyAssert (rings.isNone || decide (m ≤ 2)) = .ok () := by
      cases hrr : rings with
      | none => rfl
      | some size =>
        have := hr size hrr
        subst this
        simp [pyAssert, hmk]
    simp only [hm, Option.getD_some, ha, ok_bind, h2, hst]
    rfl

end
end Verif
