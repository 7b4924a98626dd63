import Verif.Lemmas.Clique
import Mathlib.Data.List.Sort

/-!
# Lemmas about isomorphic graphs
-/

namespace Verif

variable {F L R : Type}

/-- The increasing list of the images of the vertices of a simplex. -/
def imageOf (π : Nat → Nat) (s : List Nat) : List Nat := (s.map π).insertionSort (· ≤ ·)

theorem imageOf_perm (π : Nat → Nat) (s : List Nat) : (imageOf π s).Perm (s.map π) :=
  List.perm_insertionSort _ _

theorem sortedLE_of_simplex {s : List Nat} (h : s.Pairwise (· < ·)) : s.Pairwise (· ≤ ·) :=
  h.imp fun hab => Nat.le_of_lt hab

theorem eq_of_perm_simplex {s t : List Nat} (hs : s.Pairwise (· < ·)) (ht : t.Pairwise (· < ·))
    (h : s.Perm t) : s = t :=
  h.eq_of_pairwise' (sortedLE_of_simplex hs) (sortedLE_of_simplex ht)

theorem isFacet_iff_subset {f c : List Nat} (hf : f.Pairwise (· < ·)) (hc : c.Pairwise (· < ·)) :
    IsFacet f c ↔ f ⊆ c ∧ f.length + 1 = c.length := by
  unfold IsFacet
  constructor
  · rintro ⟨h1, h2⟩; exact ⟨h1.subset, h2⟩
  · rintro ⟨h1, h2⟩
    refine ⟨List.sublist_of_subperm_of_pairwise (r := (· ≤ ·)) ?_ (sortedLE_of_simplex hf)
      (sortedLE_of_simplex hc), h2⟩
    have hn : f.Nodup := hf.imp fun hab => Nat.ne_of_lt hab
    exact hn.subperm h1

theorem nodup_of_simplex {s : List Nat} (h : s.Pairwise (· < ·)) : s.Nodup :=
  h.imp fun hab => Nat.ne_of_lt hab

theorem simplex_of_nodup {s : List Nat} (h : s.Pairwise (· ≤ ·)) (hn : s.Nodup) : s.Pairwise (· < ·) :=
  (h.and hn).imp fun hab => Nat.lt_of_le_of_ne hab.1 hab.2

section

variable {size : Nat} {π : Nat → Nat} (hin : ∀ v, v < size → π v < size)
  (hinj : ∀ u v, u < size → v < size → π u = π v → u = v)

include hinj

theorem imageOf_simplex {s : List Nat} (hs : IsSimplex s) (hv : ∀ v ∈ s, v < size) :
    IsSimplex (imageOf π s) := by
  have hn : (imageOf π s).Nodup := by
    rw [(imageOf_perm π s).nodup_iff]
    exact List.Nodup.map_on (fun u hu v hv' e => hinj u v (hv u hu) (hv v hv') e) (nodup_of_simplex hs.2)
  refine ⟨?_, simplex_of_nodup (List.pairwise_insertionSort _ _) hn⟩
  intro e
  have := (imageOf_perm π s).length_eq
  rw [e] at this
  simp only [List.length_nil, List.length_map] at this
  exact hs.1 (List.length_eq_zero_iff.mp this.symm)

theorem mem_imageOf {s : List Nat} (hv : ∀ v ∈ s, v < size) {u : Nat} (hu : u < size) :
    π u ∈ imageOf π s ↔ u ∈ s := by
  rw [(imageOf_perm π s).mem_iff, List.mem_map]
  constructor
  · rintro ⟨w, hw, e⟩
    rw [← hinj w u (hv w hw) hu e]
    exact hw
  · intro h; exact ⟨u, h, rfl⟩

theorem imageOf_inj {s t : List Nat} (hs : IsSimplex s) (ht : IsSimplex t) (hvs : ∀ v ∈ s, v < size)
    (hvt : ∀ v ∈ t, v < size) (h : imageOf π s = imageOf π t) : s = t := by
  refine eq_of_perm_simplex hs.2 ht.2 ?_
  rw [List.perm_ext_iff_of_nodup (nodup_of_simplex hs.2) (nodup_of_simplex ht.2)]
  intro v
  constructor
  · intro hv
    rw [← mem_imageOf hinj hvt (hvs v hv), ← h, mem_imageOf hinj hvs (hvs v hv)]
    exact hv
  · intro hv
    rw [← mem_imageOf hinj hvs (hvt v hv), h, mem_imageOf hinj hvt (hvt v hv)]
    exact hv

theorem imageOf_facet {s t : List Nat} (hs : IsSimplex s) (ht : IsSimplex t) (hvs : ∀ v ∈ s, v < size)
    (hvt : ∀ v ∈ t, v < size) : IsFacet (imageOf π s) (imageOf π t) ↔ IsFacet s t := by
  rw [isFacet_iff_subset (imageOf_simplex hinj hs hvs).2 (imageOf_simplex hinj ht hvt).2,
    isFacet_iff_subset hs.2 ht.2, (imageOf_perm π s).length_eq, (imageOf_perm π t).length_eq,
    List.length_map, List.length_map]
  refine and_congr_left fun _ => ?_
  constructor
  · intro h v hv
    exact (mem_imageOf hinj hvt (hvs v hv)).mp (h ((mem_imageOf hinj hvs (hvs v hv)).mpr hv))
  · intro h w hw
    rw [(imageOf_perm π s).mem_iff] at hw
    obtain ⟨v, hv, rfl⟩ := List.mem_map.mp hw
    exact (mem_imageOf hinj hvt (hvs v hv)).mpr (h hv)

include hin

/-- A one-to-one map of the vertices is onto. -/
theorem vertex_surj {w : Nat} (hw : w < size) : ∃ v, v < size ∧ π v = w := by
  have hn : ((List.range size).map π).Nodup :=
    List.Nodup.map_on (fun u hu v hv e => hinj u v (List.mem_range.mp hu) (List.mem_range.mp hv) e)
      List.nodup_range
  have hsub : (List.range size).map π ⊆ List.range size := by
    intro u hu
    obtain ⟨v, hv, rfl⟩ := List.mem_map.mp hu
    exact List.mem_range.mpr (hin v (List.mem_range.mp hv))
  have hp : ((List.range size).map π).Perm (List.range size) :=
    (hn.subperm hsub).perm_of_length_le (by simp)
  have : w ∈ (List.range size).map π := hp.mem_iff.mpr (List.mem_range.mpr hw)
  obtain ⟨v, hv, rfl⟩ := List.mem_map.mp this
  exact ⟨v, List.mem_range.mp hv, rfl⟩

/-- Every simplex of vertices is the image of one. -/
theorem imageOf_surj {t : List Nat} (ht : IsSimplex t) (hv : ∀ v ∈ t, v < size) :
    ∃ s, IsSimplex s ∧ (∀ v ∈ s, v < size) ∧ imageOf π s = t := by
  refine ⟨(List.range size).filter fun v => decide (π v ∈ t), ⟨?_, ?_⟩, ?_, ?_⟩
  · intro h
    obtain ⟨w, hw⟩ := List.exists_mem_of_ne_nil _ ht.1
    obtain ⟨v, hv', rfl⟩ := vertex_surj hin hinj (hv w hw)
    have : v ∈ (List.range size).filter fun v => decide (π v ∈ t) := by simp [hv', hw]
    rw [h] at this
    simp at this
  · exact (List.pairwise_lt_range (n := size)).filter _
  · intro v hv
    exact List.mem_range.mp (List.mem_of_mem_filter hv)
  · have hs : IsSimplex ((List.range size).filter fun v => decide (π v ∈ t)) := by
      refine ⟨?_, (List.pairwise_lt_range (n := size)).filter _⟩
      intro h
      obtain ⟨w, hw⟩ := List.exists_mem_of_ne_nil _ ht.1
      obtain ⟨v, hv', rfl⟩ := vertex_surj hin hinj (hv w hw)
      have : v ∈ (List.range size).filter fun v => decide (π v ∈ t) := by simp [hv', hw]
      rw [h] at this
      simp at this
    have hvs : ∀ v ∈ (List.range size).filter (fun v => decide (π v ∈ t)), v < size := fun v hv =>
      List.mem_range.mp (List.mem_of_mem_filter hv)
    refine eq_of_perm_simplex (imageOf_simplex hinj hs hvs).2 ht.2 ?_
    rw [List.perm_ext_iff_of_nodup (nodup_of_simplex (imageOf_simplex hinj hs hvs).2)
      (nodup_of_simplex ht.2)]
    intro w
    constructor
    · intro hw
      rw [(imageOf_perm π _).mem_iff] at hw
      obtain ⟨v, hv, rfl⟩ := List.mem_map.mp hw
      simpa using (List.mem_filter.mp hv).2
    · intro hw
      obtain ⟨v, hv', rfl⟩ := vertex_surj hin hinj (hv w hw)
      exact (mem_imageOf hinj hvs hv').mpr (by simp [hv', hw])

end

/-- The image of a clique is a clique. -/
theorem imageOf_clique {edges edges' : List (Nat × Nat)} {size : Nat} {x x' : List F} {π : Nat → Nat}
    (iso : GraphIso edges edges' size x x' π) {s : List Nat} (hs : IsSimplex s)
    (hv : ∀ v ∈ s, v < size) : IsClique edges' size (imageOf π s) ↔ IsClique edges size s := by
  have hmem : ∀ w, w ∈ imageOf π s ↔ ∃ v ∈ s, π v = w := by
    intro w
    rw [(imageOf_perm π s).mem_iff, List.mem_map]
  constructor
  · rintro ⟨-, -, h⟩
    refine ⟨hs, hv, fun u hu v hv' hne => ?_⟩
    refine (iso.joined u v (hv u hu) (hv v hv')).mp (h _ ((hmem _).mpr ⟨u, hu, rfl⟩) _
      ((hmem _).mpr ⟨v, hv', rfl⟩) fun e => hne (iso.inj u v (hv u hu) (hv v hv') e))
  · rintro ⟨-, -, h⟩
    refine ⟨imageOf_simplex iso.inj hs hv, ?_, ?_⟩
    · intro w hw
      obtain ⟨v, hv', rfl⟩ := (hmem w).mp hw
      exact iso.vertex v (hv v hv')
    · intro w1 h1 w2 h2 hne
      obtain ⟨u, hu, rfl⟩ := (hmem w1).mp h1
      obtain ⟨v, hv', rfl⟩ := (hmem w2).mp h2
      exact (iso.joined u v (hv u hu) (hv v hv')).mpr (h u hu v hv' fun e => hne (by rw [e]))

theorem dims_eq_of_carry {st st' : SimplexTree} (h : ∀ s ∈ st.simplices, ∃ t ∈ st'.simplices, t.length = s.length)
    (h' : ∀ s ∈ st'.simplices, ∃ t ∈ st.simplices, t.length = s.length) : st.dims = st'.dims := by
  apply Nat.le_antisymm
  · by_contra hlt
    obtain ⟨s, hs, e⟩ := dims_attained (st := st) (by omega)
    obtain ⟨t, ht, e'⟩ := h s hs
    have := length_le_dims ht
    omega
  · by_contra hlt
    obtain ⟨s, hs, e⟩ := dims_attained (st := st') (by omega)
    obtain ⟨t, ht, e'⟩ := h' s hs
    have := length_le_dims ht
    omega

/-- The clique complexes of isomorphic graphs are renumberings of each other. -/
theorem clique_relabels {g g' : Gudhi} (hg : g.Ok) (hg' : g'.Ok) {agg : List R → R}
    (hagg : ∀ l l' : List R, l.Perm l' → agg l = agg l') {edges edges' : List (Nat × Nat)} {size : Nat}
    {x x' : List R} {π : Nat → Nat} (iso : GraphIso edges edges' size x x' π) (he : EdgesIn edges size)
    (he' : EdgesIn edges' size) (h0 : 0 < size) (hx : x.length = size) (hx' : x'.length = size)
    (k : Nat) {y y' : Option (List L)} (hy : ∀ l, y = some l → l.length = 1 ∨ l.length = size)
    (hy' : ∀ l, y' = some l → l.length = 1 ∨ l.length = size) (down : Bool) :
    ∃ comp comp' : Complex R L, cliqueComplex g agg (some x) edges size k y down = .ok comp ∧
      cliqueComplex g' agg (some x') edges' size k y' down = .ok comp' ∧
      comp.Ready ∧ comp'.Ready ∧ 0 < comp.cellsIn 0 ∧ ∃ φ, Relabels comp.view comp'.view φ := by
  have H := holds_expanded hg he k
  have H' := holds_expanded hg' he' k
  obtain ⟨l1, r1⟩ := liftTree_ok (agg := agg) (down := down) H h0 hx hy
  obtain ⟨l2, r2⟩ := liftTree_ok (agg := agg) (down := down) H' h0 hx' hy'
  set st := g.expanded (insertions edges size) k with hst
  set st' := g'.expanded (insertions edges' size) k with hst'
  have cd := cellData_simplices H h0
  have cd' := cellData_simplices H' h0
  have hm : ∀ s, s ∈ st.simplices ↔ IsClique edges size s ∧ s.length ≤ max k 1 + 1 :=
    fun s => mem_expanded hg he
  have hm' : ∀ s, s ∈ st'.simplices ↔ IsClique edges' size s ∧ s.length ≤ max k 1 + 1 :=
    fun s => mem_expanded hg' he'
  have hfwd : ∀ s ∈ st.simplices, imageOf π s ∈ st'.simplices := by
    intro s hs
    obtain ⟨hc, hl⟩ := (hm s).mp hs
    refine (hm' _).mpr ⟨(imageOf_clique iso hc.1 hc.2.1).mpr hc, ?_⟩
    rw [(imageOf_perm π s).length_eq, List.length_map]
    exact hl
  have hbwd : ∀ t ∈ st'.simplices, ∃ s ∈ st.simplices, imageOf π s = t := by
    intro t ht
    obtain ⟨hc, hl⟩ := (hm' t).mp ht
    obtain ⟨s, h1, h2, rfl⟩ := imageOf_surj iso.vertex iso.inj hc.1 hc.2.1
    refine ⟨s, (hm s).mpr ⟨(imageOf_clique iso h1 h2).mp hc, ?_⟩, rfl⟩
    rw [(imageOf_perm π s).length_eq, List.length_map] at hl
    exact hl
  have hlen : ∀ s, (imageOf π s).length = s.length := fun s => by
    rw [(imageOf_perm π s).length_eq, List.length_map]
  have hdims : st.dims = st'.dims := by
    apply dims_eq_of_carry
    · intro s hs; exact ⟨_, hfwd s hs, hlen s⟩
    · intro t ht
      obtain ⟨s, hs, rfl⟩ := hbwd t ht
      exact ⟨s, hs, (hlen s).symm⟩
  have cc : CarriesCells (st.cellsOf size) (st'.cellsOf size) st.dims IsFacet IsFacet
      (fun _ => imageOf π) := by
    have hsim : ∀ d, ∀ s ∈ st.cellsOf size d, IsSimplex s ∧ (∀ v ∈ s, v < size) := by
      intro d s hs
      obtain ⟨hc, -⟩ := (hm s).mp ((mem_cellsOf H).mp hs).1
      exact ⟨hc.1, hc.2.1⟩
    refine { nodup := fun d _ => nodup_cellsOf H d, nodup' := fun d _ => nodup_cellsOf H' d,
             mem := ?_, inj := ?_, surj := ?_, face := ?_ }
    · intro d s _ hs
      obtain ⟨h1, h2⟩ := (mem_cellsOf H).mp hs
      exact (mem_cellsOf H').mpr ⟨hfwd s h1, by rw [hlen]; exact h2⟩
    · intro d s t _ hs ht e
      obtain ⟨a1, a2⟩ := hsim d s hs
      obtain ⟨b1, b2⟩ := hsim d t ht
      exact imageOf_inj iso.inj a1 b1 a2 b2 e
    · intro d t _ ht
      obtain ⟨h1, h2⟩ := (mem_cellsOf H').mp ht
      obtain ⟨s, hs, rfl⟩ := hbwd t h1
      exact ⟨s, (mem_cellsOf H).mpr ⟨hs, by rw [hlen] at h2; exact h2⟩, rfl⟩
    · intro d s t _ hs ht
      obtain ⟨a1, a2⟩ := hsim d s hs
      obtain ⟨b1, b2⟩ := hsim (d + 1) t ht
      exact imageOf_facet iso.inj a1 b1 a2 b2
  have lf := complexOf_lifts (vy := vertexLabels y) (down := down) cd r1 (complexLabel y)
  have lf' := complexOf_lifts (vy := vertexLabels y') (down := down) cd' r2 (complexLabel y')
  have vd := complexOf_valid (vy := vertexLabels y) (down := down) cd r1 (complexLabel y)
  have vd' := complexOf_valid (vy := vertexLabels y') (down := down) cd' r2 (complexLabel y')
  refine ⟨_, _, l1, l2, ⟨vd, ?_, lf.vertices.2.1⟩, ⟨vd', ?_, lf'.vertices.2.1⟩, ?_,
    renumber (st.cellsOf size) (st'.cellsOf size) (fun _ => imageOf π), ?_⟩
  · intro c hc
    obtain ⟨d, _, rfl⟩ := List.mem_map.mp hc
    rfl
  · intro c hc
    obtain ⟨d, _, rfl⟩ := List.mem_map.mp hc
    rfl
  · rw [lf.count 0 cd.pos]
    simpa [SimplexTree.cellsOf] using h0
  · refine relabels_of_lifts (dims := st.dims) vd vd' lf (hdims ▸ lf') cc ?_ ?_ ?_
    · intro d hd
      rw [complexOf_attr, if_pos hd]
      exact ⟨_, rfl, r1.rows d _ hd rfl⟩
    · intro d hd
      rw [complexOf_attr, if_pos (by omega)]
      exact ⟨_, rfl, r2.rows d _ (by omega) rfl⟩
    · intro d a hd ha
      rw [complexOf_attr, complexOf_attr, if_pos hd, if_pos (by omega)]
      simp only [cochainOf, Option.getD_some]
      obtain ⟨s, hs⟩ : ∃ s, (st.cellsOf size d)[a]? = some s := ⟨_, List.getElem?_eq_getElem ha⟩
      have hg := cc.get hd hs
      have hsm := List.mem_of_getElem? hs
      have hvs : ∀ v ∈ s, v < size := ((hm s).mp ((mem_cellsOf H).mp hsm).1).1.2.1
      unfold liftedRows
      split
      · next hd0 =>
        subst hd0
        simp only [SimplexTree.cellsOf, if_true] at hs ha
        rw [List.getElem?_map] at hs
        obtain ⟨v, hv, rfl⟩ := Option.map_eq_some_iff.mp hs
        have hav : a = v := by
          have hlt : a < size := by simpa using ha
          rw [List.getElem?_range hlt] at hv
          exact Option.some.inj hv
        subst hav
        simp only [SimplexTree.cellsOf, if_true] at hg
        rw [List.getElem?_map] at hg
        obtain ⟨w, hw, e⟩ := Option.map_eq_some_iff.mp hg
        have hlt : renumber (st.cellsOf size) (st'.cellsOf size) (fun _ => imageOf π) 0 a < size := by
          have := lt_of_get hw
          simpa using this
        have hw' : renumber (st.cellsOf size) (st'.cellsOf size) (fun _ => imageOf π) 0 a = w := by
          have := List.getElem?_range hlt
          exact Option.some.inj (this.symm.trans hw)
        have he : [w] = [π a] := e
        rw [hw', (List.cons.inj he).1]
        exact iso.feat a (by simpa using ha)
      · unfold combineRows
        rw [List.getElem?_map, List.getElem?_map, hg, hs]
        simp only [Option.map_some, Option.some.injEq]
        apply hagg
        refine ((imageOf_perm π s).filterMap _).trans ?_
        rw [List.filterMap_map]
        refine List.Perm.of_eq (List.filterMap_congr fun v hv => ?_)
        exact iso.feat v (hvs v hv)

end Verif
