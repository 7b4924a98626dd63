import Verif.Spec.RingIso
import Verif.Spec.EmbedBatch
import Verif.Lemmas.RingComplex
import Verif.Lemmas.GraphIso

/-!
# Ring complexes of isomorphic graphs
-/

namespace Verif

variable {R L : Type}

/-! ### Images of rings -/

section

variable {edges edges' : List (Nat × Nat)} {size : Nat} {x x' : List R} {π : Nat → Nat}

theorem isRing_vertices (he : EdgesIn edges size) {r : List Nat} (h : IsRing edges r) : ∀ v ∈ r, v < size := by
  intro v hv
  obtain ⟨i, hi⟩ := List.mem_iff_getElem?.mp hv
  obtain ⟨m, hm, hf⟩ := follows_exists (lt_of_get hi)
  have hj := (h.joined i m v _ hi (List.getElem?_eq_getElem hm)).mpr (.inl hf)
  rcases hj.2 with h | h
  · exact (he _ h).1
  · exact (he _ h).2

theorem isRing_image (iso : GraphIso edges edges' size x x' π) {r : List Nat} (hv : ∀ v ∈ r, v < size) :
    IsRing edges' (r.map π) ↔ IsRing edges r := by
  have key : ∀ (i j : Nat) (u v : Nat), r[i]? = some u → r[j]? = some v →
      (Joined edges' (π u) (π v) ↔ Joined edges u v) := fun i j u v hi hj =>
    iso.joined u v (hv u (List.mem_of_getElem? hi)) (hv v (List.mem_of_getElem? hj))
  constructor
  · intro h
    refine ⟨by simpa using h.long, ?_, ?_⟩
    · exact List.Nodup.of_map _ h.nodup
    · intro i j u v hi hj
      rw [← key i j u v hi hj, h.joined i j (π u) (π v) (by simp [hi]) (by simp [hj]), List.length_map]
  · intro h
    refine ⟨by simpa using h.long, ?_, ?_⟩
    · exact List.Nodup.map_on (fun u hu v hv' e => iso.inj u v (hv u hu) (hv v hv') e) h.nodup
    · intro i j u v hi hj
      rw [List.getElem?_map] at hi hj
      obtain ⟨a, ha, rfl⟩ := Option.map_eq_some_iff.mp hi
      obtain ⟨b, hb, rfl⟩ := Option.map_eq_some_iff.mp hj
      rw [key i j a b ha hb, h.joined i j a b ha hb, List.length_map]

/-- A list of vertices is the image of one. -/
theorem map_surj (iso : GraphIso edges edges' size x x' π) {t : List Nat} (ht : ∀ v ∈ t, v < size) :
    ∃ s : List Nat, (∀ v ∈ s, v < size) ∧ s.map π = t := by
  induction t with
  | nil => exact ⟨[], by simp, rfl⟩
  | cons w t ih =>
    obtain ⟨s, h1, rfl⟩ := ih fun v hv => ht v (by simp [hv])
    obtain ⟨v, hv, rfl⟩ := vertex_surj iso.vertex iso.inj (ht w (by simp))
    exact ⟨v :: s, by simpa using ⟨hv, h1⟩, rfl⟩

theorem mem_map_iff (iso : GraphIso edges edges' size x x' π) {s : List Nat} (hs : ∀ v ∈ s, v < size)
    {u : Nat} (hu : u < size) : π u ∈ s.map π ↔ u ∈ s := by
  rw [List.mem_map]
  constructor
  · rintro ⟨w, hw, e⟩
    rw [← iso.inj w u (hs w hw) hu e]
    exact hw
  · intro h; exact ⟨u, h, rfl⟩

theorem perm_of_map (iso : GraphIso edges edges' size x x' π) {s t : List Nat} (hs : ∀ v ∈ s, v < size)
    (ht : ∀ v ∈ t, v < size) (ns : s.Nodup) (nt : t.Nodup) (h : (s.map π).Perm (t.map π)) : s.Perm t := by
  rw [List.perm_ext_iff_of_nodup ns nt]
  intro v
  constructor
  · intro hv
    rw [← mem_map_iff iso ht (hs v hv), ← h.mem_iff, mem_map_iff iso hs (hs v hv)]
    exact hv
  · intro hv
    rw [← mem_map_iff iso hs (ht v hv), h.mem_iff, mem_map_iff iso ht (ht v hv)]
    exact hv

/-- Cells that are determined by their vertex sets, carried by a map of vertices. -/
theorem carries_of_perm (iso : GraphIso edges edges' size x x' π) {K K' : Nat → List (List Nat)}
    {dims : Nat} {μ : Nat → List Nat → List Nat}
    (nK : ∀ d, d < dims → (K d).Nodup) (nK' : ∀ d, d < dims → (K' d).Nodup)
    (hs : ∀ d, d < dims → ∀ s ∈ K d, s.Nodup ∧ ∀ v ∈ s, v < size)
    (hdet : ∀ d, d < dims → ∀ s ∈ K d, ∀ t ∈ K d, s.Perm t → s = t)
    (hdet' : ∀ d, d < dims → ∀ s ∈ K' d, ∀ t ∈ K' d, s.Perm t → s = t)
    (hmem : ∀ d, d < dims → ∀ s ∈ K d, μ d s ∈ K' d ∧ (μ d s).Perm (s.map π))
    (hsurj : ∀ d, d < dims → ∀ t ∈ K' d, ∃ s ∈ K d, (s.map π).Perm t) :
    CarriesCells K K' dims OnCell OnCell μ where
  nodup := nK
  nodup' := nK'
  mem d s hd h := (hmem d hd s h).1
  inj d s t hd h1 h2 e := by
    have p1 := (hmem d hd s h1).2
    have p2 := (hmem d hd t h2).2
    rw [e] at p1
    exact hdet d hd s h1 t h2 (perm_of_map iso (hs d hd s h1).2 (hs d hd t h2).2 (hs d hd s h1).1
      (hs d hd t h2).1 (p1.symm.trans p2))
  surj d t hd ht := by
    obtain ⟨s, h1, h2⟩ := hsurj d hd t ht
    obtain ⟨h3, h4⟩ := hmem d hd s h1
    exact ⟨s, h1, hdet' d hd _ h3 t ht (h4.trans h2)⟩
  face d s t hd h1 h2 := by
    have p1 := (hmem d (by omega) s h1).2
    have p2 := (hmem (d + 1) hd t h2).2
    have v1 := (hs d (by omega) s h1).2
    have v2 := (hs (d + 1) hd t h2).2
    unfold OnCell
    constructor
    · intro h v hv
      rw [← mem_map_iff iso v2 (v1 v hv), ← p2.mem_iff]
      exact h (p1.mem_iff.mpr (List.mem_map_of_mem hv))
    · intro h w hw
      obtain ⟨v, hv, rfl⟩ := List.mem_map.mp (p1.mem_iff.mp hw)
      exact p2.mem_iff.mpr (List.mem_map_of_mem (h hv))

/-- The image of a cell of a ring complex: the increasing list of the images of the vertices, and for a
ring the ring with these vertices. -/
def ringImage (π : Nat → Nat) (rings' : List (List Nat)) (d : Nat) (s : List Nat) : List Nat :=
  if d = 2 then (rings'.find? fun r => decide (r.Perm (s.map π))).getD [] else imageOf π s

end

section

variable {g g' : Gudhi} {lib lib' : RingLib} {edges edges' : List (Nat × Nat)} {size : Nat} {x x' : List R}
  {π : Nat → Nat}

theorem rings_determined (hl : lib.Ok) (edges : List (Nat × Nat)) (maxK : Nat) :
    ∀ s ∈ getRings lib edges maxK, ∀ t ∈ getRings lib edges maxK, s.Perm t → s = t := by
  intro s hs t ht hp
  by_contra hne
  obtain ⟨i, hi, rfl⟩ := List.mem_iff_getElem.mp hs
  obtain ⟨j, hj, rfl⟩ := List.mem_iff_getElem.mp ht
  have hpw := List.pairwise_iff_getElem.mp (getRings_spec lib hl.order edges maxK).2.2
  rcases Nat.lt_trichotomy i j with h1 | h1 | h1
  · exact hpw i j hi hj h1 hp
  · subst h1; exact hne rfl
  · exact hpw j i hj hi h1 hp.symm

theorem rings_carry (hl : lib.Ok) (hl' : lib'.Ok) (iso : GraphIso edges edges' size x x' π) (he : EdgesIn edges size)
    {maxK : Nat} {r : List Nat} (hr : r ∈ getRings lib edges maxK) :
    ∃ r' ∈ getRings lib' edges' maxK, r'.Perm (r.map π) := by
  obtain ⟨h1, h2⟩ := getRings_ring hl hr
  exact (getRings_spec lib' hl'.order edges' maxK).2.1 _ ((mem_reported hl').mpr
    ⟨(isRing_image iso (isRing_vertices he h1)).mpr h1, by simpa using h2⟩)

theorem rings_carry_back (hl : lib.Ok) (hl' : lib'.Ok) (iso : GraphIso edges edges' size x x' π)
    (he' : EdgesIn edges' size) {maxK : Nat} {t : List Nat} (ht : t ∈ getRings lib' edges' maxK) :
    ∃ r ∈ getRings lib edges maxK, (r.map π).Perm t := by
  obtain ⟨h1, h2⟩ := getRings_ring hl' ht
  obtain ⟨s, hs, rfl⟩ := map_surj iso (isRing_vertices he' h1)
  obtain ⟨r, hr, hp⟩ := (getRings_spec lib hl.order edges maxK).2.1 s ((mem_reported hl).mpr
    ⟨(isRing_image iso hs).mp h1, by simpa using h2⟩)
  exact ⟨r, hr, hp.map π⟩

theorem rings_nil (hl : lib.Ok) (hl' : lib'.Ok) (iso : GraphIso edges edges' size x x' π) (he : EdgesIn edges size)
    (he' : EdgesIn edges' size) {maxK : Nat} :
    getRings lib edges maxK = [] ↔ getRings lib' edges' maxK = [] := by
  constructor
  · intro h
    rw [List.eq_nil_iff_forall_not_mem]
    intro t ht
    obtain ⟨r, hr, -⟩ := rings_carry_back hl hl' iso he' ht
    rw [h] at hr
    simp at hr
  · intro h
    rw [List.eq_nil_iff_forall_not_mem]
    intro t ht
    obtain ⟨r, hr, -⟩ := rings_carry hl hl' iso he ht
    rw [h] at hr
    simp at hr

theorem inserted_dims_eq (hg : g.Ok) (hg' : g'.Ok) (iso : GraphIso edges edges' size x x' π) (he : EdgesIn edges size)
    (he' : EdgesIn edges' size) (h0 : 0 < size) :
    (g.inserted (insertions edges size)).dims = (g'.inserted (insertions edges' size)).dims := by
  have a := dims_inserted_le hg he h0
  have a' := dims_inserted_le hg' he' h0
  have b := dims_pos (holds_inserted hg he) h0
  have b' := dims_pos (holds_inserted hg' he') h0
  have c := dims_inserted_two hg he h0
  have c' := dims_inserted_two hg' he' h0
  have hin : ∀ {es : List (Nat × Nat)}, EdgesIn es size → ∀ {u v : Nat}, Joined es u v → u < size ∧ v < size := by
    intro es hes u v h
    rcases h.2 with h | h
    · exact hes _ h
    · exact (hes _ h).symm
  have : (∃ u v, Joined edges u v) ↔ ∃ u v, Joined edges' u v := by
    constructor
    · rintro ⟨u, v, h⟩
      obtain ⟨hu, hv⟩ := hin he h
      exact ⟨π u, π v, (iso.joined u v hu hv).mpr h⟩
    · rintro ⟨u, v, h⟩
      obtain ⟨hu, hv⟩ := hin he' h
      obtain ⟨a, ha, rfl⟩ := vertex_surj iso.vertex iso.inj hu
      obtain ⟨b, hb, rfl⟩ := vertex_surj iso.vertex iso.inj hv
      exact ⟨a, b, (iso.joined a b ha hb).mp h⟩
  rw [← c, ← c'] at this
  omega

/-- The cells of the ring complexes of isomorphic graphs correspond. -/
theorem ring_carries (hg : g.Ok) (hg' : g'.Ok) (hl : lib.Ok) (hl' : lib'.Ok) (iso : GraphIso edges edges' size x x' π)
    (he : EdgesIn edges size) (he' : EdgesIn edges' size) (h0 : 0 < size) (maxK dims : Nat) :
    CarriesCells (ringCells (g.inserted (insertions edges size)) size (getRings lib edges maxK))
      (ringCells (g'.inserted (insertions edges' size)) size (getRings lib' edges' maxK)) dims OnCell OnCell
      (ringImage π (getRings lib' edges' maxK)) := by
  have H := holds_inserted hg he
  have H' := holds_inserted hg' he'
  have hm : ∀ s, s ∈ (g.inserted (insertions edges size)).simplices ↔ _ := fun s => mem_inserted hg he
  have hm' : ∀ s, s ∈ (g'.inserted (insertions edges' size)).simplices ↔ _ := fun s => mem_inserted hg' he'
  have hlen : ∀ s, (imageOf π s).length = s.length := fun s => by
    rw [(imageOf_perm π s).length_eq, List.length_map]
  have hsim : ∀ d, ∀ s ∈ (g.inserted (insertions edges size)).cellsOf size d, IsSimplex s ∧ ∀ v ∈ s, v < size := by
    intro d s hs
    have hc := ((hm s).mp ((mem_cellsOf H).mp hs).1).1
    exact ⟨hc.1, hc.2.1⟩
  have hsim' : ∀ d, ∀ s ∈ (g'.inserted (insertions edges' size)).cellsOf size d, IsSimplex s ∧ ∀ v ∈ s, v < size := by
    intro d s hs
    have hc := ((hm' s).mp ((mem_cellsOf H').mp hs).1).1
    exact ⟨hc.1, hc.2.1⟩
  refine carries_of_perm iso ?_ ?_ ?_ ?_ ?_ ?_ ?_
  · intro d _
    unfold ringCells
    split
    · exact nodup_getRings hl _ _
    · exact nodup_cellsOf H d
  · intro d _
    unfold ringCells
    split
    · exact nodup_getRings hl' _ _
    · exact nodup_cellsOf H' d
  · intro d _ s hs
    unfold ringCells at hs
    split at hs
    · have hr := (getRings_ring hl hs).1
      exact ⟨hr.nodup, isRing_vertices he hr⟩
    · obtain ⟨h1, h2⟩ := hsim d s hs
      exact ⟨nodup_of_simplex h1.2, h2⟩
  · intro d _ s hs t ht hp
    unfold ringCells at hs ht
    split at hs
    · next h => rw [if_pos h] at ht; exact rings_determined hl _ _ s hs t ht hp
    · next h => rw [if_neg h] at ht; exact eq_of_perm_simplex (hsim d s hs).1.2 (hsim d t ht).1.2 hp
  · intro d _ s hs t ht hp
    unfold ringCells at hs ht
    split at hs
    · next h => rw [if_pos h] at ht; exact rings_determined hl' _ _ s hs t ht hp
    · next h => rw [if_neg h] at ht; exact eq_of_perm_simplex (hsim' d s hs).1.2 (hsim' d t ht).1.2 hp
  · intro d _ s hs
    unfold ringCells at hs ⊢
    unfold ringImage
    split at hs
    · next h =>
      rw [if_pos h, if_pos h]
      obtain ⟨r', hr', hp⟩ := rings_carry hl hl' iso he hs
      cases hf : (getRings lib' edges' maxK).find? fun r => decide (r.Perm (s.map π)) with
      | none =>
        have := List.find?_eq_none.mp hf r' hr'
        simp [hp] at this
      | some q =>
        refine ⟨List.mem_of_find?_eq_some hf, ?_⟩
        simpa using List.find?_some hf
    · next h =>
      rw [if_neg h, if_neg h]
      obtain ⟨h1, h2⟩ := (mem_cellsOf H).mp hs
      obtain ⟨hc, hl'⟩ := (hm s).mp h1
      refine ⟨(mem_cellsOf H').mpr ⟨(hm' _).mpr ⟨(imageOf_clique iso hc.1 hc.2.1).mpr hc, ?_⟩, ?_⟩,
        imageOf_perm π s⟩
      · rw [hlen]; exact hl'
      · rw [hlen]; exact h2
  · intro d _ t ht
    unfold ringCells at ht ⊢
    split at ht
    · next h => rw [if_pos h]; exact rings_carry_back hl hl' iso he' ht
    · next h =>
      rw [if_neg h]
      obtain ⟨h1, h2⟩ := (mem_cellsOf H').mp ht
      obtain ⟨hc, hl'⟩ := (hm' t).mp h1
      obtain ⟨s, a1, a2, rfl⟩ := imageOf_surj iso.vertex iso.inj hc.1 hc.2.1
      rw [hlen] at h2 hl'
      exact ⟨s, (mem_cellsOf H).mpr ⟨(hm s).mpr ⟨(imageOf_clique iso a1 a2).mp hc, hl'⟩, h2⟩,
        (imageOf_perm π s).symm⟩

end

/-! ### The lifted complex -/

section

variable [DecidableEq R] {g : Gudhi} {lib : RingLib} {agg : List R → R} {maxK : Nat}
  {down initEdges initRings : Bool}

/-- What the rows of the edges are, if there are any. -/
structure EdgeDesc (agg : List R → R) (initEdges : Bool) (st : SimplexTree) (G : RGraph R L)
    (x1 : Option (List R)) : Prop where
  some : x1.isSome = (initEdges && decide (2 ≤ st.dims))
  plain : ∀ rows, x1 = .some rows → G.attr = none → rows = combineRows agg G.x (st.cellsOf G.size 1)
  given : ∀ rows a, x1 = .some rows → G.attr = .some a → ∀ (i : Nat) (e : Nat × Nat) (c : Nat),
    G.edges[i]? = .some e → (st.cellsOf G.size 1)[c]? = .some (canon e) → rows[c]? = a[i]?

theorem edge_cells_ne {edges : List (Nat × Nat)} {size : Nat} {st : SimplexTree} {rings : List (List Nat)}
    (rd : RingData st size edges rings) (h : 2 ≤ st.dims) : st.cellsOf size 1 ≠ [] := by
  intro e
  obtain ⟨s, hs, hsl⟩ := dims_attained (st := st) (by omega)
  have := rd.low
  have : s ∈ st.cellsOf size 1 := (mem_cellsOf rd.holds).mpr ⟨hs, by omega⟩
  rw [e] at this
  simp at this

theorem RGraph.lift_ok (hg : g.Ok) (hl : lib.Ok) {G : RGraph R L} (hG : G.Ok) {st : SimplexTree}
    (hst : st = g.inserted (insertions G.edges G.size)) {rings : List (List Nat)}
    (hr : rings = getRings lib G.edges maxK) :
    ∃ x1, G.lift g lib agg maxK down initEdges initRings =
      .ok (complexOf (ringCells st G.size rings) (ringDims st rings) ringFaces (ringBd st) (ringCob st rings)
        down (ringXs G.x x1 (ringRows initRings
          (tab (ringDims st rings) (liftedRows agg G.x (ringCells st G.size rings)))))
        (vertexLabels G.y) (complexLabel G.y)) ∧
      RowsFit (ringCells st G.size rings) (ringDims st rings) (ringXs G.x x1 (ringRows initRings
          (tab (ringDims st rings) (liftedRows agg G.x (ringCells st G.size rings))))) ∧
      EdgeDesc agg initEdges st G x1 := by
  have rd : RingData st G.size G.edges rings := by
    subst hst hr; exact ringData_of hg hl hG.edges hG.pos maxK
  have hge := ringDims_ge rd
  obtain ⟨x1, h1, hfit, hd⟩ : ∃ x1, edgeRows G.edges G.attr initEdges st.dims
      ⟨tab (ringDims st rings) (ringCells st G.size rings),
        tab (ringDims st rings) fun d => (ringCells st G.size rings d).zipIdx⟩
      (tab (ringDims st rings) (liftedRows agg G.x (ringCells st G.size rings))) = .ok x1 ∧
      (∀ rows, x1 = some rows → rows.length = (st.cellsOf G.size 1).length) ∧
      EdgeDesc agg initEdges st G x1 := by
    cases ha : G.attr with
    | none =>
      refine ⟨_, edgeRows_none hge, ?_, ?_⟩
      · intro rows h
        split at h
        · rw [← Option.some.inj h]; simp [combineRows]
        · exact absurd h (by simp)
      · refine ⟨?_, ?_, fun rows a _ h => absurd (ha.symm.trans h) (by simp)⟩
        · split
          · next h => simp [h]
          · next h => simpa using h
        · intro rows h _
          split at h
          · exact (Option.some.inj h).symm
          · exact absurd h (by simp)
    | some a =>
      rw [edgeRows_some hge]
      by_cases hc : initEdges = true ∧ 2 ≤ st.dims
      · rw [if_pos hc]
        obtain ⟨a1, a2⟩ := hG.attr a ha
        have hne := edge_cells_ne rd hc.2
        obtain ⟨rows, e1, e2, e3⟩ := edgeFeatures_ok (nodup_cellsOf rd.holds 1) hne
          (fun e he => by subst hst; exact canon_mem hg hG.edges hG.loops he)
          (fun f hf => by subst hst; exact canon_surj hg hG.edges hf) a1.ge a2
        refine ⟨some rows, by rw [e1]; rfl, ?_, ?_⟩
        · intro rows' h; cases h; exact e2
        · refine ⟨by simp [hc], fun rows' _ h => absurd (ha.symm.trans h) (by simp), ?_⟩
          intro rows' a' h h' i e c hi hcell
          cases h
          have : a = a' := Option.some.inj (ha.symm.trans h')
          subst this
          exact e3 i e c hi hcell
      · rw [if_neg hc]
        refine ⟨none, rfl, by simp, ⟨?_, by simp, by simp⟩⟩
        simpa using hc
  obtain ⟨e, fit⟩ := ringComplex_ok (agg := agg) (y := G.y) (down := down) (initRings := initRings) hg hl hG.edges
    hG.loops hG.pos hG.rows hG.labels hst hr h1 hfit
  exact ⟨x1, e, fit, hd⟩

/-- What the initial layers and the networks need to know about a ring complex. -/
structure RingFacts (comp : Complex R L) (initEdges initRings : Bool) : Prop where
  valid : comp.Valid
  small : comp.dimension ≤ 2
  cells : ∀ d, d ≤ comp.dimension → 0 < comp.cellsIn d
  nodes : (comp.attr 0 Cochain.x).isSome
  vertices : comp.attr 0 Cochain.lowerIndex = none
  faces : ∀ d c, 1 ≤ d → c < comp.cellsIn d → ∃ p ∈ comp.faces d, p.2 = c
  edges : (comp.attr 1 Cochain.x).isSome = (initEdges && decide (1 ≤ comp.dimension))
  rings : (comp.attr 2 Cochain.x).isSome = (initRings && decide (2 ≤ comp.dimension))

theorem ring_facts {edges : List (Nat × Nat)} {size : Nat} {st : SimplexTree} {rings : List (List Nat)}
    (rd : RingData st size edges rings) {x : List R} {x1 : Option (List R)} {vy y : Option (List L)}
    (fit : RowsFit (ringCells st size rings) (ringDims st rings) (ringXs x x1 (ringRows initRings
          (tab (ringDims st rings) (liftedRows agg x (ringCells st size rings))))))
    (h1 : x1.isSome = (initEdges && decide (2 ≤ st.dims))) :
    RingFacts (complexOf (ringCells st size rings) (ringDims st rings) ringFaces (ringBd st)
      (ringCob st rings) down (ringXs x x1 (ringRows initRings
          (tab (ringDims st rings) (liftedRows agg x (ringCells st size rings))))) vy y)
      initEdges initRings := by
  have cd := rd.cellData
  have lf := complexOf_lifts (vy := vy) (down := down) cd fit y
  have hdim : ∀ d, d ≤ ringDims st rings - 1 ↔ d < ringDims st rings := fun d => by
    have := cd.pos; omega
  have h2 : 2 ≤ ringDims st rings ↔ 2 ≤ st.dims := by
    unfold ringDims
    split
    · rfl
    · next h => have := rd.dims_two h; omega
  refine ⟨complexOf_valid cd fit y, ?_, ?_, ?_, lf.vertices.2.1, ?_, ?_, ?_⟩
  · show ringDims st rings - 1 ≤ 2
    have := rd.dims_le
    omega
  · intro d hd
    have hd : d < ringDims st rings := (hdim d).mp hd
    rw [lf.count d hd]
    apply List.length_pos_iff.mpr
    have := rd.dims_le
    have h012 : d = 0 ∨ d = 1 ∨ d = 2 := by omega
    rcases h012 with rfl | rfl | rfl
    · have := rd.pos
      simp [ringCells, SimplexTree.cellsOf]
      omega
    · exact edge_cells_ne rd (h2.mp hd)
    · intro e
      have e : rings = [] := e
      have := rd.low
      unfold ringDims at hd
      rw [if_pos e] at hd
      omega
  · rw [complexOf_attr, if_pos cd.pos]
    rfl
  · intro d c hd hc
    obtain ⟨d, rfl⟩ : ∃ d', d = d' + 1 := ⟨d - 1, by omega⟩
    rw [complexOf_cellsIn cd fit] at hc
    split at hc
    · next hlt =>
      obtain ⟨t, ht⟩ : ∃ t, (ringCells st size rings (d + 1))[c]? = some t := ⟨_, List.getElem?_eq_getElem hc⟩
      have htm := List.mem_of_getElem? ht
      have htwo := cd.two d t hlt htm
      obtain ⟨f, hf⟩ : ∃ f, f ∈ ringBd st (d + 1) t := List.exists_mem_of_length_pos (by omega)
      obtain ⟨f1, f2⟩ := (cd.bd d t hlt htm f).mp hf
      obtain ⟨a, ha⟩ := List.mem_iff_getElem?.mp f1
      exact ⟨(a, c), (lf.bnd d a c).mpr ⟨hlt, f, t, ha, ht, f2⟩, rfl⟩
    · omega
  · rw [complexOf_attr]
    show _ = (initEdges && decide (1 ≤ ringDims st rings - 1))
    have hb : decide (1 ≤ ringDims st rings - 1) = decide (2 ≤ st.dims) := by
      rw [decide_eq_decide]; omega
    rw [hb, ← h1]
    split
    · rfl
    · next hlt =>
      rw [h1]
      have : ¬ 2 ≤ st.dims := by omega
      simp [this]
  · rw [complexOf_attr]
    show _ = (initRings && decide (2 ≤ ringDims st rings - 1))
    split
    · next hlt =>
      have : 2 ≤ ringDims st rings - 1 := by omega
      simp only [cochainOf, ringXs, ringRows]
      rw [tab_get _ hlt]
      cases initRings <;> simp [this]
    · next hlt =>
      have : ¬ 2 ≤ ringDims st rings - 1 := by omega
      simp [this]

/-- Two edges with the same image as cells. -/
theorem image_canon {π : Nat → Nat} {e e' : Nat × Nat} (h : imageOf π (canon e) = canon e') :
    e' = (π e.1, π e.2) ∨ e' = (π e.2, π e.1) := by
  have h1 : (imageOf π (canon e)).Perm [π e.1, π e.2] := by
    refine (imageOf_perm π _).trans ?_
    unfold canon
    exact (List.perm_insertionSort (· ≤ ·) [e.1, e.2]).map π
  have h2 : (canon e').Perm [e'.1, e'.2] := List.perm_insertionSort (· ≤ ·) [e'.1, e'.2]
  rw [h] at h1
  have h3 : canon e' = canon (π e.1, π e.2) := (sortedNat_eq_iff _ _).mpr (h2.symm.trans h1)
  rcases (canon_eq_iff _ _).mp h3 with h4 | h4
  · exact .inl h4
  · exact .inr h4

/-- Combined features of corresponding cells. -/
theorem combineRows_carry (hagg : ∀ l l' : List R, l.Perm l' → agg l = agg l') {x x' : List R}
    {π : Nat → Nat} {cells cells' : List (List Nat)} {a b : Nat} {s t : List Nat} (hs : cells[a]? = some s)
    (ht : cells'[b]? = some t) (hp : t.Perm (s.map π)) (hf : ∀ v ∈ s, x'[π v]? = x[v]?) :
    (combineRows agg x' cells')[b]? = (combineRows agg x cells)[a]? := by
  unfold combineRows
  rw [List.getElem?_map, List.getElem?_map, hs, ht]
  simp only [Option.map_some, Option.some.injEq]
  apply hagg
  refine (hp.filterMap _).trans ?_
  rw [List.filterMap_map]
  exact List.Perm.of_eq (List.filterMap_congr fun v hv => hf v hv)

/-- The ring complexes of isomorphic graphs are renumberings of each other. -/
theorem ring_relabels {g' : Gudhi} {lib' : RingLib} (hg : g.Ok) (hg' : g'.Ok) (hl : lib.Ok)
    (hl' : lib'.Ok) (hagg : ∀ l l' : List R, l.Perm l' → agg l = agg l')
    {G H : RGraph R L} (hG : G.Ok) (hH : H.Ok) (iso : G.Iso H) :
    ∃ comp comp' : Complex R L, G.lift g lib agg maxK down initEdges initRings = .ok comp ∧
      H.lift g' lib' agg maxK down initEdges initRings = .ok comp' ∧
      RingFacts comp initEdges initRings ∧ RingFacts comp' initEdges initRings ∧
      ∃ φ, RelabelsCells comp comp' φ := by
  obtain ⟨hsz, hsome, π, hπ, hattr⟩ := iso
  have heH : EdgesIn H.edges G.size := hsz ▸ hH.edges
  obtain ⟨x1, l1, r1, d1⟩ := RGraph.lift_ok (agg := agg) (maxK := maxK) (down := down) (initEdges := initEdges)
    (initRings := initRings) hg hl hG rfl rfl
  obtain ⟨x2, l2, r2, d2⟩ := RGraph.lift_ok (agg := agg) (maxK := maxK) (down := down) (initEdges := initEdges)
    (initRings := initRings) hg' hl' hH rfl rfl
  have rd := ringData_of hg hl hG.edges hG.pos maxK
  have rd' := ringData_of hg' hl' hH.edges hH.pos maxK
  have cc := ring_carries hg hg' hl hl' hπ hG.edges heH hG.pos maxK
    (ringDims (g.inserted (insertions G.edges G.size)) (getRings lib G.edges maxK))
  have hdims : (g.inserted (insertions G.edges G.size)).dims = (g'.inserted (insertions H.edges G.size)).dims :=
    inserted_dims_eq hg hg' hπ hG.edges heH hG.pos
  have hrd : ringDims (g.inserted (insertions G.edges G.size)) (getRings lib G.edges maxK) =
      ringDims (g'.inserted (insertions H.edges G.size)) (getRings lib' H.edges maxK) := by
    unfold ringDims
    simp only [rings_nil hl hl' hπ hG.edges heH, hdims]
  obtain ⟨Hsize, Hx, Hedges, Hattr, Hy⟩ := H
  simp only at hsz
  subst hsz
  simp only at *
  generalize hst : g.inserted (insertions G.edges G.size) = st at *
  generalize hst' : g'.inserted (insertions Hedges G.size) = st' at *
  have hmem1 : ∀ s, s ∈ st.cellsOf G.size 1 → ∃ e ∈ G.edges, canon e = s := by
    intro s hs; rw [← hst] at hs; exact canon_surj hg hG.edges hs
  have hmem1' : ∀ s, s ∈ st'.cellsOf G.size 1 → ∃ e ∈ Hedges, canon e = s := by
    intro s hs; rw [← hst'] at hs; exact canon_surj hg' heH hs
  have cd := rd.cellData
  have cd' := rd'.cellData
  have lf := complexOf_lifts (vy := vertexLabels G.y) (down := down) cd r1 (complexLabel G.y)
  have lf' := complexOf_lifts (vy := vertexLabels Hy) (down := down) cd' r2 (complexLabel Hy)
  have f1 := ring_facts (down := down) (vy := vertexLabels G.y) (y := complexLabel G.y) rd r1 d1.some
  have f2 := ring_facts (down := down) (vy := vertexLabels Hy) (y := complexLabel Hy) rd' r2 d2.some
  refine ⟨_, _, l1, l2, f1, f2, renumber (ringCells st G.size (getRings lib G.edges maxK))
    (ringCells st' G.size (getRings lib' Hedges maxK)) (ringImage π (getRings lib' Hedges maxK)), ?_⟩
  obtain ⟨hup, hdown, hbnd⟩ := columns_of_lifts f1.valid f2.valid lf (hrd ▸ lf') cc
  have hverts : ∀ d, ∀ s ∈ ringCells st G.size (getRings lib G.edges maxK) d, ∀ v ∈ s, v < G.size := by
    intro d s hs
    unfold ringCells at hs
    split at hs
    · exact isRing_vertices hG.edges (getRings_ring hl hs).1
    · rw [← hst] at hs
      exact ((mem_inserted hg hG.edges).mp ((mem_cellsOf (holds_inserted hg hG.edges)).mp hs).1).1.2.1
  refine { size := ?_, inj := ?_, some := ?_, feat := ?_, up := hup, down := hdown, bnd := hbnd }
  · intro d
    rw [complexOf_cellsIn cd r1, complexOf_cellsIn cd' r2, ← hrd]
    split
    · next hd => exact cc.length hd
    · rfl
  · intro d a b ha hb h
    rw [complexOf_cellsIn cd r1] at ha hb
    by_cases hd : d < ringDims st (getRings lib G.edges maxK)
    · rw [if_pos hd] at ha hb
      exact cc.inj_num hd ha hb h
    · rw [if_neg hd] at ha
      omega
  · intro d
    match d with
    | 0 => rw [f1.nodes, f2.nodes]
    | 1 =>
      rw [f1.edges, f2.edges]
      show (initEdges && decide (1 ≤ ringDims _ _ - 1)) = (initEdges && decide (1 ≤ ringDims _ _ - 1))
      rw [hrd]
    | 2 =>
      rw [f1.rings, f2.rings]
      show (initRings && decide (2 ≤ ringDims _ _ - 1)) = (initRings && decide (2 ≤ ringDims _ _ - 1))
      rw [hrd]
    | d + 3 =>
      have := rd.dims_le
      have := rd'.dims_le
      rw [complexOf_attr, complexOf_attr, if_neg (by omega), if_neg (by omega)]
  · intro d a ha
    rw [complexOf_cellsIn cd r1] at ha
    by_cases hd : d < ringDims st (getRings lib G.edges maxK)
    · rw [if_pos hd] at ha
      simp only [Complex.view]
      rw [complexOf_attr, complexOf_attr, if_pos hd, if_pos (hrd ▸ hd)]
      simp only [cochainOf]
      obtain ⟨s, hs⟩ : ∃ s, (ringCells st G.size (getRings lib G.edges maxK) d)[a]? = some s :=
        ⟨_, List.getElem?_eq_getElem ha⟩
      have hget := cc.get hd hs
      have hle := rd.dims_le
      have h012 : d = 0 ∨ d = 1 ∨ d = 2 := by omega
      have hsv := hverts d s (List.mem_of_getElem? hs)
      generalize renumber _ _ _ d a = b at hget
      rcases h012 with rfl | rfl | rfl
      · simp only [ringXs, if_true, Option.getD_some]
        simp only [ringCells, SimplexTree.cellsOf, if_true, if_neg (show ¬ (0 = 2) by omega),
          List.getElem?_map, Option.map_eq_some_iff] at hs hget
        obtain ⟨v, hv, rfl⟩ := hs
        obtain ⟨w, hw, e⟩ := hget
        obtain ⟨h3, rfl⟩ := List.getElem?_eq_some_iff.mp hv
        obtain ⟨h4, rfl⟩ := List.getElem?_eq_some_iff.mp hw
        simp only [List.getElem_range] at e ⊢
        have e : [b] = [π a] := e
        rw [(List.cons.inj e).1]
        exact hπ.feat a (by simpa using h3)
      · simp only [ringXs, if_neg (show ¬ (1 = 0) by omega), if_true]
        have hs : (st.cellsOf G.size 1)[a]? = some s := hs
        have hget : (st'.cellsOf G.size 1)[b]? = some (imageOf π s) := hget
        cases h1 : x1 with
        | none =>
          have : x2 = none := by
            have h2 := d2.some
            rw [← hdims, ← d1.some, h1] at h2
            simpa using h2
          rw [this]
          simp
        | some rows =>
          obtain ⟨rows', h2⟩ : ∃ rows', x2 = some rows' := by
            have h2 := d2.some
            rw [← hdims, ← d1.some, h1] at h2
            exact Option.isSome_iff_exists.mp h2
          rw [h2, Option.getD_some, Option.getD_some]
          cases hGa : G.attr with
          | none =>
            have hHa : Hattr = none := by rw [hGa] at hsome; simpa using hsome
            rw [d1.plain rows h1 hGa, d2.plain rows' h2 hHa]
            exact combineRows_carry hagg hs hget (imageOf_perm π s) fun v hv => hπ.feat v (hsv v hv)
          | some at1 =>
            obtain ⟨at2, hHa⟩ : ∃ at2, Hattr = some at2 := by
              rw [hGa] at hsome; exact Option.isSome_iff_exists.mp hsome
            obtain ⟨e, he, rfl⟩ := hmem1 s (List.mem_of_getElem? hs)
            obtain ⟨e', he', hce⟩ := hmem1' _ (List.mem_of_getElem? hget)
            obtain ⟨i, hi⟩ := List.mem_iff_getElem?.mp he
            obtain ⟨j, hj⟩ := List.mem_iff_getElem?.mp he'
            rw [d1.given rows at1 h1 hGa i e a hi hs, d2.given rows' at2 h2 hHa j e' b hj (by rw [hce]; exact hget)]
            exact hattr at1 at2 hGa hHa i j e e' hi hj (image_canon hce.symm)
      · simp only [ringXs, ringRows, if_neg (show ¬ (2 = 0) by omega), if_neg (show ¬ (2 = 1) by omega), if_true]
        rw [tab_get _ hd, tab_get _ (hrd ▸ hd)]
        cases initRings with
        | false => simp
        | true =>
          simp only [if_true, Option.getD_some, liftedRows, if_neg (show ¬ (2 = 0) by omega)]
          refine combineRows_carry hagg hs hget ?_ fun v hv => hπ.feat v (hsv v hv)
          have hr : s ∈ getRings lib G.edges maxK := List.mem_of_getElem? hs
          simp only [ringImage, if_true]
          obtain ⟨r', hr', hp⟩ := rings_carry hl hl' hπ hG.edges hr
          cases hf : (getRings lib' Hedges maxK).find? fun r => decide (r.Perm (s.map π)) with
          | none =>
            have := List.find?_eq_none.mp hf r' hr'
            simp [hp] at this
          | some q => simpa using List.find?_some hf
    · rw [if_neg hd] at ha
      omega

end

end Verif
