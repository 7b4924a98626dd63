import Verif.FixturesRing
import Verif.Lemmas.RingComplex
import Verif.Props.Lifting

/-!
# Properties of the ring lifting (C31-C33, and the ring parts of C23, C25, C26, C28-C30)

The concrete graph beside the theorems is `Fixtures.shed`: a square with a triangle on one side, every
edge in both directions; `Fixtures.plainRings` is a cycle search that meets the contract `RingLib.Ok`.
-/

namespace Verif

variable {F L : Type}

/-! ### C31 -/

/-- **C31** Whatever list of cycles the search reports for each length, in whatever order and however
often: the rings are reported cycles, every reported cycle has the vertex set of a ring, and no two rings
have the same vertex set. -/
theorem C31_one_ring_per_vertex_set (lib : RingLib) (ho : ∀ l, (lib.order l).Perm l)
    (edges : List (Nat × Nat)) (maxK : Nat) :
    (∀ r ∈ getRings lib edges maxK, ∃ k, 3 ≤ k ∧ k ≤ maxK ∧ r ∈ lib.isos edges k) ∧
    (∀ k r, 3 ≤ k → k ≤ maxK → r ∈ lib.isos edges k → ∃ r' ∈ getRings lib edges maxK, r'.Perm r) ∧
    (getRings lib edges maxK).Pairwise (fun a b => ¬ a.Perm b) := by
  obtain ⟨h1, h2, h3⟩ := getRings_spec lib ho edges maxK
  refine ⟨?_, ?_, h3⟩
  · intro r hr
    obtain ⟨k, hk, hm⟩ := List.mem_flatMap.mp (h1 r hr)
    have := List.mem_range'_1.mp hk
    exact ⟨k, by omega, by omega, hm⟩
  · intro k r hk hk' hr
    exact h2 r (List.mem_flatMap.mpr ⟨k, List.mem_range'_1.mpr (by omega), hr⟩)

theorem pairwise_apart {A : Type} {R : A → A → Prop} (hs : ∀ a b, R a b → R b a) {l : List A}
    (h : l.Pairwise R) {a b : A} (ha : a ∈ l) (hb : b ∈ l) (hne : a ≠ b) : R a b := by
  obtain ⟨i, hi, rfl⟩ := List.mem_iff_getElem.mp ha
  obtain ⟨j, hj, rfl⟩ := List.mem_iff_getElem.mp hb
  rcases Nat.lt_trichotomy i j with h1 | h1 | h1
  · exact List.pairwise_iff_getElem.mp h i j hi hj h1
  · subst h1; exact absurd rfl hne
  · exact hs _ _ (List.pairwise_iff_getElem.mp h j i hj hi h1)

/-- **C31** The rings of a graph: each is an induced cycle of length at least three and at most `maxK`, and
every such cycle, in any rotation and direction, has the vertices of exactly one of them. -/
theorem C31_rings_are_the_induced_cycles (lib : RingLib) (hl : lib.Ok) (edges : List (Nat × Nat))
    (maxK : Nat) :
    (getRings lib edges maxK).Nodup ∧
    (∀ r ∈ getRings lib edges maxK, IsRing edges r ∧ 3 ≤ r.length ∧ r.length ≤ maxK) ∧
    ∀ r, IsRing edges r → r.length ≤ maxK →
      ∃ r' ∈ getRings lib edges maxK, r'.Perm r ∧
        (∃ k, r = r'.rotate k ∨ r = r'.reverse.rotate k) ∧
        ∀ r'' ∈ getRings lib edges maxK, (∀ v, v ∈ r'' ↔ v ∈ r) → r'' = r' := by
  obtain ⟨-, h2, h3⟩ := getRings_spec lib hl.order edges maxK
  have hring : ∀ r ∈ getRings lib edges maxK, IsRing edges r ∧ r.length ≤ maxK := fun r hr => getRings_ring hl hr
  refine ⟨nodup_getRings hl edges maxK, fun r hr => ⟨(hring r hr).1, (hring r hr).1.long, (hring r hr).2⟩, ?_⟩
  intro r hr hle
  obtain ⟨r', hm, hp⟩ := h2 r ((mem_reported hl).mpr ⟨hr, hle⟩)
  refine ⟨r', hm, hp, ring_determined (hring r' hm).1 hr hp, fun r'' hm'' hsame => ?_⟩
  have hp'' : r''.Perm r := (List.perm_ext_iff_of_nodup (hring r'' hm'').1.nodup hr.nodup).mpr hsame
  by_contra hne
  exact pairwise_apart (fun _ _ h e => h e.symm) h3 hm'' hm hne (hp''.trans hp.symm)

/-- **C31** The vertex set determines an induced cycle: two of them with the same vertices differ in the
start and the direction only, and have the same boundary edges. -/
theorem C31_vertex_set_determines_the_cycle (edges : List (Nat × Nat)) (r r' : List Nat)
    (h : IsRing edges r) (h' : IsRing edges r') (hsame : ∀ v, v ∈ r ↔ v ∈ r') :
    (∃ k, r' = r.rotate k ∨ r' = r.reverse.rotate k) ∧
    (getRingBoundaries r).Perm (getRingBoundaries r') := by
  have hp : r.Perm r' := (List.perm_ext_iff_of_nodup h.nodup h'.nodup).mpr hsame
  refine ⟨ring_determined h h' hp,
    (List.perm_ext_iff_of_nodup (nodup_ringBoundaries h) (nodup_ringBoundaries h')).mpr fun f => ?_⟩
  rw [mem_ringBoundaries h, mem_ringBoundaries h']
  simp only [hsame]

example : getRings Fixtures.plainRings Fixtures.shed 4 = [[3, 4, 2], [2, 3, 0, 1]] := by decide +kernel

example : (Fixtures.plainRings.isos Fixtures.shed 4).length = 8 := by decide +kernel

example : Fixtures.plainRings.Ok := Fixtures.plainRings_ok

example : IsRing Fixtures.shed [2, 3, 0, 1] ∧ IsRing Fixtures.shed [0, 3, 2, 1] :=
  ⟨Fixtures.ringCheck_iff.mp (by decide), Fixtures.ringCheck_iff.mp (by decide)⟩

/-! ### C32 -/

/-- **C32** The boundary of a ring: the edges of the graph with both ends on it, each once; as many as
vertices; every vertex of the ring is on exactly two. -/
theorem C32_boundary_of_a_ring (edges : List (Nat × Nat)) (r : List Nat) (h : IsRing edges r) :
    (∀ f, f ∈ getRingBoundaries r ↔ ∃ u v, f = [u, v] ∧ u < v ∧ u ∈ r ∧ v ∈ r ∧
      ((u, v) ∈ edges ∨ (v, u) ∈ edges)) ∧
    (getRingBoundaries r).Nodup ∧ (getRingBoundaries r).length = r.length ∧
    ∀ v ∈ r, ((getRingBoundaries r).filter fun f => decide (v ∈ f)).length = 2 := by
  refine ⟨fun f => ?_, nodup_ringBoundaries h, length_ringBoundaries r, fun v hv => ringBoundaries_at h hv⟩
  rw [mem_ringBoundaries h]
  constructor
  · rintro ⟨u, v, h1, h2, h3, h4, h5⟩
    exact ⟨u, v, h2, h1, h3, h4, h5.2⟩
  · rintro ⟨u, v, h1, h2, h3, h4, h5⟩
    exact ⟨u, v, h2, h1, h3, h4, Nat.ne_of_lt h2, h5⟩

example : getRingBoundaries [2, 3, 0, 1] = [[0, 1], [0, 3], [1, 2], [2, 3]] := by decide

/-! ### The lifted complex -/

/-- Features of edges that the ring lifting accepts: one row per column of the edge index, the same for
all columns of an edge. -/
def EdgeInput (edges : List (Nat × Nat)) (attr : Option (List F)) : Prop :=
  ∀ a, attr = some a → a.length = edges.length ∧ Agree edges a

/-- The rows are the combined features of the vertices of the cells. -/
def CombinesVertices (agg : List F → F) (x : List F) (cells : List (List Nat)) (rows : List F) : Prop :=
  rows.length = cells.length ∧ ∀ (c : Nat) (s : List Nat), cells[c]? = some s → ∃ vals,
    List.Forall₂ (fun v r => x[v]? = some r) s vals ∧ rows[c]? = some (agg vals)

theorem combineRows_combines {agg : List F → F} {x : List F} {cells : List (List Nat)}
    (h : ∀ c ∈ cells, ∀ v ∈ c, v < x.length) : CombinesVertices agg x cells (combineRows agg x cells) := by
  refine ⟨by simp [combineRows], fun c s hs => ⟨s.filterMap fun v => x[v]?, ?_, ?_⟩⟩
  · have hv := h s (List.mem_of_getElem? hs)
    clear hs
    induction s with
    | nil => exact .nil
    | cons v s ih =>
      have hlt := hv v (by simp)
      rw [List.filterMap_cons, List.getElem?_eq_getElem hlt]
      exact .cons (List.getElem?_eq_getElem hlt) (ih fun w hw => hv w (by simp [hw]))
  · simp [combineRows, hs]

section

variable [DecidableEq F] {g : Gudhi} {lib : RingLib} {agg : List F → F} {x : List F}
  {edges : List (Nat × Nat)} {attr : Option (List F)} {size : Nat} {y : Option (List L)} {maxK : Nat}
  {down initEdges initRings : Bool}

theorem level_ring {st : SimplexTree} {rings : List (List Nat)} (rd : RingData st size edges rings) (d : Nat) :
    Tables.level ⟨tab (ringDims st rings) (ringCells st size rings),
      tab (ringDims st rings) fun d => (ringCells st size rings d).zipIdx⟩ d = ringCells st size rings d := by
  unfold Tables.level
  by_cases hd : d < ringDims st rings
  · simp only [tab_get _ hd, Option.getD_some]
  · simp only [tab_get_none _ (by omega : ringDims st rings ≤ d), Option.getD_none]
    symm
    unfold ringCells
    unfold ringDims at hd
    split
    · split at hd
      · assumption
      · omega
    · have hd' : st.dims ≤ d := by
        split at hd
        · omega
        · have := rd.low; omega
      rw [List.eq_nil_iff_forall_not_mem]
      intro s hs
      obtain ⟨h1, h2⟩ := (mem_cellsOf rd.holds).mp hs
      have := length_le_dims h1
      omega

/-- The vertices of the cells of a ring complex are vertices of the graph. -/
theorem ringCells_in {st : SimplexTree} {rings : List (List Nat)} (he : EdgesIn edges size)
    (rd : RingData st size edges rings) {d : Nat} {c : List Nat}
    (hc : c ∈ ringCells st size rings d) (hd : d ≤ 2) : ∀ v ∈ c, v < size := by
  intro v hv
  have hj : ∀ u w, Joined edges u w → u < size := by
    intro u w h
    rcases h.2 with h | h
    · exact (he _ h).1
    · exact (he _ h).2
  have : d = 0 ∨ d = 1 ∨ d = 2 := by omega
  rcases this with rfl | rfl | rfl
  · simp only [ringCells, SimplexTree.cellsOf] at hc
    obtain ⟨w, hw, rfl⟩ := List.mem_map.mp hc
    rw [List.mem_singleton] at hv
    subst hv
    exact List.mem_range.mp hw
  · obtain ⟨a, b, -, rfl, hab⟩ := (rd.edge c).mp hc
    rcases List.mem_pair.mp hv with rfl | rfl
    · exact hj _ _ hab
    · exact hj _ _ ⟨hab.1.symm, hab.2.symm⟩
  · have hring := rd.ring c hc
    obtain ⟨i, hi⟩ := List.mem_iff_getElem?.mp hv
    obtain ⟨m, hm, hf⟩ := follows_exists (lt_of_get hi)
    exact hj _ _ ((hring.joined i m v _ hi (List.getElem?_eq_getElem hm)).mpr (.inl hf))

/-- Everything known about the result of the ring lifting. -/
theorem ring_lifted (hg : g.Ok) (hl : lib.Ok) (he : EdgesIn edges size) (hn : NoLoops edges) (h0 : 0 < size)
    (hx : x.length = size) (hy : ∀ l, y = some l → l.length = 1 ∨ l.length = size)
    (ha : EdgeInput edges attr) :
    ∃ t comp, buildTablesWithRings lib edges (g.inserted (insertions edges size)) size maxK = .ok t ∧
      ringComplex g lib agg (some x) edges attr size y maxK down initEdges initRings = .ok comp ∧
      LiftsTo comp t.level t.cells.length OnCell down ∧ comp.Valid ∧ t.cells.length ≤ 3 ∧
      (∀ d, t.level d = ringCells (g.inserted (insertions edges size)) size (getRings lib edges maxK) d) ∧
      (comp.attr 0 Cochain.y = vertexLabels y ∧ comp.y = complexLabel y ∧
        ∀ d, comp.attr (d + 1) Cochain.y = none) ∧
      comp.attr 0 Cochain.x = some x ∧
      (initEdges = false → comp.attr 1 Cochain.x = none) ∧
      (initEdges = true → 1 < t.cells.length → attr = none →
        ∃ rows, comp.attr 1 Cochain.x = some rows ∧ CombinesVertices agg x (t.level 1) rows) ∧
      (initEdges = true → 1 < t.cells.length → ∀ a, attr = some a →
        ∃ rows, comp.attr 1 Cochain.x = some rows ∧ rows.length = (t.level 1).length ∧
          ∀ (i : Nat) (e : Nat × Nat) (c : Nat), edges[i]? = some e → (t.level 1)[c]? = some (canon e) →
            rows[c]? = a[i]?) ∧
      (initRings = false → comp.attr 2 Cochain.x = none) ∧
      (initRings = true → 2 < t.cells.length →
        ∃ rows, comp.attr 2 Cochain.x = some rows ∧ CombinesVertices agg x (t.level 2) rows) := by
  obtain ⟨st, hst⟩ : ∃ st, st = g.inserted (insertions edges size) := ⟨_, rfl⟩
  obtain ⟨rings, hr⟩ : ∃ rings, rings = getRings lib edges maxK := ⟨_, rfl⟩
  have rd : RingData st size edges rings := by subst hst hr; exact ringData_of hg hl he h0 maxK
  have hge := ringDims_ge rd
  have htwo : 1 < ringDims st rings → st.dims = 2 := by
    intro hd
    have := rd.low
    unfold ringDims at hd
    split at hd
    · omega
    · exact rd.dims_two (by assumption)
  have hcomb : ∀ d, d ≤ 2 → CombinesVertices agg x (ringCells st size rings d)
      (combineRows agg x (ringCells st size rings d)) := by
    intro d hd
    apply combineRows_combines
    intro c hc v hv
    rw [hx]
    exact ringCells_in he rd hc hd v hv
  -- the features of the edges
  obtain ⟨x1, h1, hfit, f0, f1, f2⟩ : ∃ x1, edgeRows edges attr initEdges st.dims
        ⟨tab (ringDims st rings) (ringCells st size rings),
          tab (ringDims st rings) fun d => (ringCells st size rings d).zipIdx⟩
        (tab (ringDims st rings) (liftedRows agg x (ringCells st size rings))) = .ok x1 ∧
      (∀ rows, x1 = some rows → rows.length = (st.cellsOf size 1).length) ∧
      (initEdges = false → x1 = none) ∧
      (initEdges = true → 1 < ringDims st rings → attr = none →
        ∃ rows, x1 = some rows ∧ CombinesVertices agg x (st.cellsOf size 1) rows) ∧
      (initEdges = true → 1 < ringDims st rings → ∀ a, attr = some a →
        ∃ rows, x1 = some rows ∧ rows.length = (st.cellsOf size 1).length ∧
          ∀ (i : Nat) (e : Nat × Nat) (c : Nat), edges[i]? = some e → (st.cellsOf size 1)[c]? = some (canon e) →
            rows[c]? = a[i]?) := by
    cases attr with
    | none =>
      refine ⟨_, edgeRows_none hge, ?_, ?_, ?_, by simp⟩
      · intro rows h
        split at h
        · rw [← Option.some.inj h]; simp [combineRows]
        · simp at h
      · intro h; simp [h]
      · intro h hd _
        rw [if_pos ⟨h, by rw [htwo hd]⟩]
        exact ⟨_, rfl, hcomb 1 (by omega)⟩
    | some a =>
      obtain ⟨hlen, hagree⟩ := ha a rfl
      rw [edgeRows_some hge]
      by_cases hc : initEdges = true ∧ 2 ≤ st.dims
      · have hne : st.cellsOf size 1 ≠ [] := by
          obtain ⟨s, hs, hsl⟩ := dims_attained (st := st) (by omega)
          have : s ∈ st.cellsOf size 1 := (mem_cellsOf rd.holds).mpr ⟨hs, by have := rd.low; omega⟩
          exact List.ne_nil_of_mem this
        obtain ⟨rows, e1, e2, e3⟩ := edgeFeatures_ok (nodup_cellsOf rd.holds 1) hne
          (fun e hm => by subst hst; exact canon_mem hg he hn hm)
          (fun f hf => by subst hst; exact canon_surj hg he hf) (Nat.le_of_eq hlen.symm) hagree
        rw [if_pos hc, e1]
        refine ⟨_, rfl, ?_, ?_, by simp, ?_⟩
        · intro r h; rw [← Option.some.inj h]; exact e2
        · intro h; simp [h] at hc
        · intro _ _ a' ha'
          obtain rfl := Option.some.inj ha'
          exact ⟨rows, rfl, e2, e3⟩
      · rw [if_neg hc]
        refine ⟨none, rfl, by simp, by simp, by simp, ?_⟩
        intro h hd
        exact absurd ⟨h, by rw [htwo hd]⟩ hc
  obtain ⟨h2, h3⟩ := ringComplex_ok (initRings := initRings) (down := down) hg hl he hn h0 hx hy hst hr h1 hfit
  have hlev := funext (level_ring rd)
  have hattr : ∀ d, (complexOf (ringCells st size rings) (ringDims st rings) ringFaces (ringBd st)
      (ringCob st rings) down (ringXs x x1 (ringRows initRings (tab (ringDims st rings)
        (liftedRows agg x (ringCells st size rings))))) (vertexLabels y) (complexLabel y)).attr d Cochain.x =
      if d < ringDims st rings then ringXs x x1 (ringRows initRings (tab (ringDims st rings)
        (liftedRows agg x (ringCells st size rings)))) d else none := fun d => complexOf_attr d _
  refine ⟨⟨tab (ringDims st rings) (ringCells st size rings),
    tab (ringDims st rings) fun d => (ringCells st size rings d).zipIdx⟩, _, ?_, h2, ?_,
    complexOf_valid rd.cellData h3 _, ?_, ?_, ⟨?_, rfl, ?_⟩, ?_, ?_, ?_, ?_, ?_, ?_⟩
  · rw [← hst]
    exact buildTablesWithRings_ok hg hl he h0 maxK hst hr
  · rw [hlev, tab_length]
    exact complexOf_lifts rd.cellData h3 _
  · rw [tab_length]; exact rd.dims_le
  · intro d
    rw [congrFun hlev d, hst, hr]
  · rw [complexOf_attr, if_pos rd.dims_pos]; rfl
  · intro d
    rw [complexOf_attr]
    split <;> rfl
  · rw [hattr, if_pos rd.dims_pos]; rfl
  · intro h
    rw [hattr]
    split
    · exact f0 h
    · rfl
  · intro h hd ha
    rw [tab_length] at hd
    rw [hattr, if_pos hd, congrFun hlev 1]
    exact f1 h hd ha
  · intro h hd a ha
    rw [tab_length] at hd
    rw [hattr, if_pos hd, congrFun hlev 1]
    exact f2 h hd a ha
  · intro h
    rw [hattr]
    split
    · simp [ringXs, ringRows, h]
    · rfl
  · intro h hd
    rw [tab_length] at hd
    rw [hattr, if_pos hd, congrFun hlev 2]
    refine ⟨_, ?_, hcomb 2 (by omega)⟩
    simp only [ringXs, ringRows, h, if_true, tab_get _ hd, liftedRows]
    rfl

end

section

variable [DecidableEq F] (g : Gudhi) (hg : g.Ok) (lib : RingLib) (hl : lib.Ok) (agg : List F → F) (x : List F)
  (edges : List (Nat × Nat)) (attr : Option (List F)) (size : Nat) (y : Option (List L)) (maxK : Nat)
  (down initEdges initRings : Bool) (he : EdgesIn edges size) (hn : NoLoops edges) (h0 : 0 < size)
  (hx : x.length = size) (hy : ∀ l, y = some l → l.length = 1 ∨ l.length = size) (ha : EdgeInput edges attr)

include hg hl he h0

/-- **C23** The tables of the ring lifting: vertex `v` at place `v`, every edge and every ring exactly once,
the dictionaries give exactly the places. -/
theorem C23_ring_ids_are_consecutive_and_unique :
    ∃ t, buildTablesWithRings lib edges (g.inserted (insertions edges size)) size maxK = .ok t ∧
      (t.level 0).length = size ∧ (∀ v, v < size → (t.level 0)[v]? = some [v]) ∧
      (t.level 1).Nodup ∧ (∀ f, f ∈ t.level 1 ↔ ∃ u v, u < v ∧ f = [u, v] ∧ ((u, v) ∈ edges ∨ (v, u) ∈ edges)) ∧
      t.level 2 = getRings lib edges maxK ∧ (t.level 2).Nodup ∧
      (∀ d, 2 < d → t.level d = []) ∧ t.ids.length = t.cells.length ∧
      (∀ (d : Nat) (m : Dict (List Nat) Nat), t.ids[d]? = some m →
        ∀ s i, m.get? s = some i ↔ (t.level d)[i]? = some s) := by
  have rd := ringData_of hg hl he h0 maxK
  have hlev := level_ring rd
  have hnd : ∀ d, (ringCells (g.inserted (insertions edges size)) size (getRings lib edges maxK) d).Nodup := by
    intro d
    unfold ringCells
    split
    · exact rd.nodup
    · exact nodup_cellsOf rd.holds d
  refine ⟨_, buildTablesWithRings_ok hg hl he h0 maxK rfl rfl, ?_, ?_, ?_, ?_, ?_, ?_, ?_, ?_, ?_⟩
  · rw [hlev]; simp [ringCells, SimplexTree.cellsOf]
  · intro v hv
    rw [hlev]
    simp [ringCells, SimplexTree.cellsOf, hv]
  · rw [hlev]; exact hnd 1
  · intro f
    rw [hlev]
    refine (rd.edge f).trans ?_
    constructor
    · rintro ⟨u, v, h1, h2, h3⟩; exact ⟨u, v, h1, h2, h3.2⟩
    · rintro ⟨u, v, h1, h2, h3⟩; exact ⟨u, v, h1, h2, Nat.ne_of_lt h1, h3⟩
  · rw [hlev]; rfl
  · rw [hlev]; exact hnd 2
  · intro d hd
    unfold Tables.level
    have := rd.dims_le
    simp only [tab_get_none _ (by omega : ringDims (g.inserted (insertions edges size))
      (getRings lib edges maxK) ≤ d), Option.getD_none]
  · simp
  · intro d m hm s i
    rw [hlev]
    have hd := lt_of_get hm
    simp only [tab_length] at hd
    rw [tab_get _ hd] at hm
    rw [← Option.some.inj hm, Dict.get?_zipIdx]
    constructor
    · intro e
      by_cases hs : s ∈ ringCells (g.inserted (insertions edges size)) size (getRings lib edges maxK) d
      · rw [if_pos hs] at e
        exact (idxOf_iff (hnd d) hs).mp (Option.some.inj e)
      · rw [if_neg hs] at e
        exact absurd e (by simp)
    · intro e
      have hs := List.mem_of_getElem? e
      rw [if_pos hs]
      exact congrArg some ((idxOf_iff (hnd d) hs).mpr e)

include hn hx hy ha

/-- **C28** The ring lifting never trips its own checks: for every graph without loops it succeeds and the
result is a valid complex, of dimension two iff the graph has a ring. -/
theorem C28_ring_lifting_succeeds :
    (∃ comp, ringComplex g lib agg (some x) edges attr size y maxK down initEdges initRings = .ok comp ∧
      comp.Valid ∧ comp.cellsIn 0 = size ∧ comp.dimension ≤ 2 ∧
      (comp.dimension = 2 ↔ ∃ r, IsRing edges r ∧ r.length ≤ maxK) ∧
      (comp.dimension = 0 ↔ edges = [])) ∧
    ringComplex (L := L) g lib agg none edges attr size y maxK down initEdges initRings = .error .assertion := by
  refine ⟨?_, rfl⟩
  obtain ⟨t, comp, h1, h2, h3, h4, h5, h6, -⟩ := ring_lifted (agg := agg) (maxK := maxK) (down := down)
    (initEdges := initEdges) (initRings := initRings) hg hl he hn h0 hx hy ha
  have rd := ringData_of hg hl he h0 maxK
  have hsz := h3.size
  have h1' := buildTablesWithRings_ok hg hl he h0 maxK rfl rfl
  have hc : t.cells.length = ringDims (g.inserted (insertions edges size)) (getRings lib edges maxK) := by
    rw [h1] at h1'
    rw [Except.ok.inj h1']
    simp
  have hpos := rd.dims_pos
  have hrings : getRings lib edges maxK ≠ [] ↔ ∃ r, IsRing edges r ∧ r.length ≤ maxK := by
    obtain ⟨-, c1, c2⟩ := C31_rings_are_the_induced_cycles lib hl edges maxK
    constructor
    · intro h
      obtain ⟨r, hr⟩ := List.exists_mem_of_ne_nil _ h
      exact ⟨r, (c1 r hr).1, (c1 r hr).2.2⟩
    · rintro ⟨r, hr, hk⟩
      obtain ⟨r', hm, -⟩ := c2 r hr hk
      exact List.ne_nil_of_mem hm
  have hdim : comp.dimension = 2 ↔ getRings lib edges maxK ≠ [] := by
    unfold ringDims at hc
    have := rd.low
    split at hc
    · next h =>
      constructor
      · intro; omega
      · intro h'; exact absurd h h'
    · next h =>
      constructor
      · intro; exact h
      · intro; omega
  refine ⟨comp, h2, h4, ?_, by omega, hdim.trans hrings, ?_⟩
  · rw [h3.count 0 (by omega), h6 0]
    simp [ringCells, SimplexTree.cellsOf]
  · constructor
    · intro hd
      rw [List.eq_nil_iff_forall_not_mem]
      intro e hm
      have h2 := (dims_inserted_two hg he h0).mpr ⟨_, _, noLoops_joined hn hm⟩
      have := ringDims_ge rd
      omega
    · intro hnil
      have h2 : (g.inserted (insertions edges size)).dims ≠ 2 := by
        intro h
        obtain ⟨u, v, hj⟩ := (dims_inserted_two hg he h0).mp h
        rw [hnil] at hj
        simp [Joined] at hj
      have hr : getRings lib edges maxK = [] := by
        by_contra hne
        exact h2 (rd.dims_two hne)
      have := rd.low
      unfold ringDims at hc
      rw [if_pos hr] at hc
      omega

/-- **C32** The incidence of a lifted complex between edges and rings: edge `f` is in the boundary of ring
`c` iff both its ends are on the ring, each pair once; a ring is in as many columns as it has vertices, two
for each of its vertices. -/
theorem C32_incidence_of_rings :
    ∃ t comp, buildTablesWithRings lib edges (g.inserted (insertions edges size)) size maxK = .ok t ∧
      ringComplex g lib agg (some x) edges attr size y maxK down initEdges initRings = .ok comp ∧
      comp.cellsIn 2 = (getRings lib edges maxK).length ∧
      ∃ cols, (comp.attr 2 Cochain.boundaryIndex).getD [] = cols ∧ cols.Nodup ∧
        (∀ f c, (f, c) ∈ cols ↔ ∃ u v r, (t.level 1)[f]? = some [u, v] ∧
          (getRings lib edges maxK)[c]? = some r ∧ u ∈ r ∧ v ∈ r) ∧
        (∀ (c : Nat) (r : List Nat), (getRings lib edges maxK)[c]? = some r →
          (cols.filter fun p => decide (p.2 = c)).length = r.length ∧
          ∀ v ∈ r, (cols.filter fun p => decide (p.2 = c ∧ v ∈ ((t.level 1)[p.1]?).getD [])).length = 2) := by
  obtain ⟨t, comp, h1, h2, h3, h4, h5, h6, -⟩ := ring_lifted (agg := agg) (maxK := maxK) (down := down)
    (initEdges := initEdges) (initRings := initRings) hg hl he hn h0 hx hy ha
  have rd := ringData_of hg hl he h0 maxK
  have h1' := buildTablesWithRings_ok hg hl he h0 maxK rfl rfl
  have hc : t.cells.length = ringDims (g.inserted (insertions edges size)) (getRings lib edges maxK) := by
    rw [h1] at h1'
    rw [Except.ok.inj h1']
    simp
  have hl2 : t.level 2 = getRings lib edges maxK := h6 2
  have hl1 : t.level 1 = (g.inserted (insertions edges size)).cellsOf size 1 := h6 1
  have hdims : ∀ r, r ∈ getRings lib edges maxK → 2 < t.cells.length := by
    intro r hr
    rw [hc]
    unfold ringDims
    rw [if_neg (List.ne_nil_of_mem hr)]
    omega
  have hmem : ∀ f c, (f, c) ∈ (comp.attr 2 Cochain.boundaryIndex).getD [] ↔ ∃ u v r,
      (t.level 1)[f]? = some [u, v] ∧ (getRings lib edges maxK)[c]? = some r ∧ u ∈ r ∧ v ∈ r := by
    intro f c
    rw [h3.bnd 1 f c, hl2]
    constructor
    · rintro ⟨-, s, r, e1, e2, e3⟩
      have hs := List.mem_of_getElem? e1
      rw [hl1] at hs
      obtain ⟨u, v, -, rfl, -⟩ := (rd.edge s).mp hs
      exact ⟨u, v, r, e1, e2, e3 (by simp), e3 (by simp)⟩
    · rintro ⟨u, v, r, e1, e2, e3, e4⟩
      refine ⟨hdims r (List.mem_of_getElem? e2), _, r, e1, e2, ?_⟩
      intro w hw
      rcases List.mem_pair.mp hw with rfl | rfl
      · exact e3
      · exact e4
  refine ⟨t, comp, h1, h2, ?_, _, rfl, h3.bndNodup 2, hmem, ?_⟩
  · by_cases hd : 2 < t.cells.length
    · rw [h3.count 2 hd, hl2]
    · have : getRings lib edges maxK = [] := by
        by_contra hne
        obtain ⟨r, hr⟩ := List.exists_mem_of_ne_nil _ hne
        exact hd (hdims r hr)
      rw [this]
      have hsz := h3.size
      have hlen := h4.len
      unfold Complex.cellsIn
      rw [List.getElem?_eq_none (by omega)]
      rfl
  · intro c r hr
    have hrm := List.mem_of_getElem? hr
    have hring := rd.ring r hrm
    -- the columns of the ring and its boundary correspond
    have hperm : (((comp.attr 2 Cochain.boundaryIndex).getD []).filter fun p => decide (p.2 = c)).Perm
        ((getRingBoundaries r).map fun f => (placeOf (t.level 1) f, c)) := by
      rw [List.perm_ext_iff_of_nodup ((h3.bndNodup 2).filter _)]
      · rintro ⟨f, c'⟩
        rw [List.mem_filter, hmem, List.mem_map]
        constructor
        · rintro ⟨⟨u, v, r', e1, e2, e3, e4⟩, e5⟩
          obtain rfl : c' = c := by simpa using e5
          rw [hr] at e2
          obtain rfl := Option.some.inj e2
          have hs := List.mem_of_getElem? e1
          refine ⟨[u, v], ?_, ?_⟩
          · rw [hl1] at hs
            refine (rd.ring_face hrm _).mpr ⟨hs, ?_⟩
            intro w hw
            rcases List.mem_pair.mp hw with rfl | rfl
            · exact e3
            · exact e4
          · have hnd : (t.level 1).Nodup := by rw [hl1]; exact nodup_cellsOf rd.holds 1
            rw [(idxOf_iff hnd hs).mpr e1]
        · rintro ⟨s, hs, e⟩
          obtain ⟨rfl, rfl⟩ := Prod.mk.inj e
          obtain ⟨m1, m2⟩ := (rd.ring_face hrm s).mp hs
          obtain ⟨u, v, -, rfl, -⟩ := (rd.edge s).mp m1
          have hnd : (t.level 1).Nodup := by rw [hl1]; exact nodup_cellsOf rd.holds 1
          refine ⟨⟨u, v, r, ?_, hr, m2 (by simp), m2 (by simp)⟩, by simp⟩
          exact (idxOf_iff hnd (by rw [hl1]; exact m1)).mp rfl
      · refine List.Nodup.map_on ?_ (nodup_ringBoundaries hring)
        intro s hs s' hs' e
        have m1 := ((rd.ring_face hrm s).mp hs).1
        exact idxOf_inj_on (l := t.level 1) (by rw [hl1]; exact m1) (Prod.mk.inj e).1
    refine ⟨?_, fun v hv => ?_⟩
    · rw [hperm.length_eq, List.length_map, length_ringBoundaries]
    · have e : (((comp.attr 2 Cochain.boundaryIndex).getD []).filter fun p =>
          decide (p.2 = c ∧ v ∈ ((t.level 1)[p.1]?).getD [])) =
          (((comp.attr 2 Cochain.boundaryIndex).getD []).filter fun p => decide (p.2 = c)).filter
            fun p => decide (v ∈ ((t.level 1)[p.1]?).getD []) := by
        rw [List.filter_filter]
        apply List.filter_congr
        intro p _
        rw [Bool.and_comm]
        simp
      rw [e, (hperm.filter _).length_eq, List.filter_map, List.length_map, ← ringBoundaries_at hring hv]
      congr 1
      apply List.filter_congr
      intro s hs
      have m1 := ((rd.ring_face hrm s).mp hs).1
      have hnd : (t.level 1).Nodup := by rw [hl1]; exact nodup_cellsOf rd.holds 1
      have : (t.level 1)[placeOf (t.level 1) s]? = some s := (idxOf_iff hnd (by rw [hl1]; exact m1)).mp rfl
      simp only [Function.comp_apply, this, Option.getD_some]

/-- **C25** Two vertices are upper adjacent via an edge iff they are its ends, two edges via a ring iff both
have their ends on it; each triple once. -/
theorem C25_ring_upper_adjacency :
    ∃ t comp, buildTablesWithRings lib edges (g.inserted (insertions edges size)) size maxK = .ok t ∧
      ringComplex g lib agg (some x) edges attr size y maxK down initEdges initRings = .ok comp ∧
      ∀ d, ∃ up sc, (comp.attr d Cochain.upperIndex).getD [] = up ∧
        (comp.attr d Cochain.sharedCoboundaries).getD [] = sc ∧ up.length = sc.length ∧
        (up.zip sc).Nodup ∧
        ∀ a b c, ((a, b), c) ∈ up.zip sc ↔ a ≠ b ∧ ∃ s s' u, (t.level d)[a]? = some s ∧
          (t.level d)[b]? = some s' ∧ (t.level (d + 1))[c]? = some u ∧ s ⊆ u ∧ s' ⊆ u := by
  obtain ⟨t, comp, h1, h2, h3, -⟩ := ring_lifted (agg := agg) (maxK := maxK) (down := down)
    (initEdges := initEdges) (initRings := initRings) hg hl he hn h0 hx hy ha
  refine ⟨t, comp, h1, h2, fun d => ⟨_, _, rfl, rfl, h3.upBoth d, h3.upNodup d, fun a b c => ?_⟩⟩
  rw [h3.up]
  constructor
  · rintro ⟨-, h⟩; exact h
  · rintro ⟨hne, s, s', u, e1, e2, e3, h⟩
    refine ⟨?_, hne, s, s', u, e1, e2, e3, h⟩
    by_contra hd
    unfold Tables.level at e3
    rw [List.getElem?_eq_none (l := t.cells) (by omega)] at e3
    simp at e3

/-- **C26** With lower adjacencies, two edges are lower adjacent via a vertex iff both have it as an end,
two rings via an edge iff it has both its ends on both; each triple once. Without, there are none. -/
theorem C26_ring_lower_adjacency :
    ∃ t comp, buildTablesWithRings lib edges (g.inserted (insertions edges size)) size maxK = .ok t ∧
      ringComplex g lib agg (some x) edges attr size y maxK down initEdges initRings = .ok comp ∧
      comp.attr 0 Cochain.lowerIndex = none ∧ comp.attr 0 Cochain.sharedBoundaries = none ∧
      ∀ d, ∃ low sb, (comp.attr (d + 1) Cochain.lowerIndex).getD [] = low ∧
        (comp.attr (d + 1) Cochain.sharedBoundaries).getD [] = sb ∧ low.length = sb.length ∧
        (low.zip sb).Nodup ∧ (down = false → low = []) ∧
        ∀ a b s, ((a, b), s) ∈ low.zip sb ↔ down = true ∧ a ≠ b ∧ ∃ u u' f, (t.level (d + 1))[a]? = some u ∧
          (t.level (d + 1))[b]? = some u' ∧ (t.level d)[s]? = some f ∧ f ⊆ u ∧ f ⊆ u' := by
  obtain ⟨t, comp, h1, h2, h3, -⟩ := ring_lifted (agg := agg) (maxK := maxK) (down := down)
    (initEdges := initEdges) (initRings := initRings) hg hl he hn h0 hx hy ha
  refine ⟨t, comp, h1, h2, h3.vertices.2.1, h3.vertices.2.2,
    fun d => ⟨_, _, rfl, rfl, h3.downBoth (d + 1), h3.downNodup (d + 1), ?_, fun a b c => ?_⟩⟩
  · intro hd
    have hz : ((comp.attr (d + 1) Cochain.lowerIndex).getD []).zip
        ((comp.attr (d + 1) Cochain.sharedBoundaries).getD []) = [] := by
      rw [List.eq_nil_iff_forall_not_mem]
      rintro ⟨⟨a, b⟩, c⟩ hm
      have := ((h3.down d a b c).mp hm).1
      rw [hd] at this
      simp at this
    have hlen := congrArg List.length hz
    rw [List.length_zip, ← h3.downBoth (d + 1), Nat.min_self] at hlen
    exact List.length_eq_zero_iff.mp hlen
  · rw [h3.down]
    constructor
    · rintro ⟨e, -, h⟩; exact ⟨e, h⟩
    · rintro ⟨e, hne, u, u', f, e1, e2, e3, h⟩
      refine ⟨e, ?_, hne, u, u', f, e1, e2, e3, h⟩
      by_contra hd
      unfold Tables.level at e1
      rw [List.getElem?_eq_none (l := t.cells) (by omega)] at e1
      simp at e1

/-- **C29** The features of a ring complex: the vertices have those of the input; the edges, if asked for
and not given, and the rings, if asked for, the combined features of their vertices; otherwise none. -/
theorem C29_ring_complex_features :
    ∃ t comp, buildTablesWithRings lib edges (g.inserted (insertions edges size)) size maxK = .ok t ∧
      ringComplex g lib agg (some x) edges attr size y maxK down initEdges initRings = .ok comp ∧
      comp.attr 0 Cochain.x = some x ∧
      (initEdges = false → comp.attr 1 Cochain.x = none) ∧
      (initEdges = true → 1 ≤ comp.dimension → attr = none →
        ∃ rows, comp.attr 1 Cochain.x = some rows ∧ CombinesVertices agg x (t.level 1) rows) ∧
      (initRings = false → comp.attr 2 Cochain.x = none) ∧
      (initRings = true → 2 ≤ comp.dimension →
        ∃ rows, comp.attr 2 Cochain.x = some rows ∧ CombinesVertices agg x (t.level 2) rows) := by
  obtain ⟨t, comp, h1, h2, h3, -, -, -, -, f1, f2, f3, -, f5, f6⟩ := ring_lifted (agg := agg) (maxK := maxK)
    (down := down) (initEdges := initEdges) (initRings := initRings) hg hl he hn h0 hx hy ha
  have hsz := h3.size
  exact ⟨t, comp, h1, h2, f1, f2, fun h hd => f3 h (by omega), f5, fun h hd => f6 h (by omega)⟩

/-- **C30** The labels of a ring complex: a single label is the label of the complex, otherwise the labels
are those of the vertices; no other dimension has labels. -/
theorem C30_ring_complex_labels :
    ∃ comp, ringComplex g lib agg (some x) edges attr size y maxK down initEdges initRings = .ok comp ∧
      (∀ d, comp.attr (d + 1) Cochain.y = none) ∧
      (y = none → comp.attr 0 Cochain.y = none ∧ comp.y = none) ∧
      (∀ l, y = some l → l.length = 1 → comp.attr 0 Cochain.y = none ∧ comp.y = some l) ∧
      (∀ l, y = some l → l.length ≠ 1 → comp.attr 0 Cochain.y = some l ∧ comp.y = none) := by
  obtain ⟨t, comp, -, h2, -, -, -, -, ⟨l1, l2, l3⟩, -⟩ := ring_lifted (agg := agg) (maxK := maxK)
    (down := down) (initEdges := initEdges) (initRings := initRings) hg hl he hn h0 hx hy ha
  refine ⟨comp, h2, l3, ?_, ?_, ?_⟩
  · rintro rfl; exact ⟨l1, l2⟩
  · rintro l rfl h1
    rw [l1, l2]
    simp [vertexLabels, complexLabel, h1]
  · rintro l rfl h1
    rw [l1, l2]
    simp [vertexLabels, complexLabel, h1]

end

/-! ### C33 -/

section

variable [DecidableEq F] (g : Gudhi) (hg : g.Ok) (lib : RingLib) (hl : lib.Ok) (agg : List F → F) (x : List F)
  (size : Nat) (y : Option (List L)) (maxK : Nat) (down initRings : Bool) (h0 : 0 < size)
  (hx : x.length = size) (hy : ∀ l, y = some l → l.length = 1 ∨ l.length = size)

include hg hl h0 hx hy

/-- **C33** With features for every column of the edge index, the ring lifting succeeds iff the columns of
each edge, in either direction, agree; otherwise an assertion fails. On success the row of an edge cell is
the one given for the edge. -/
theorem C33_edge_features_attached_or_rejected (edges : List (Nat × Nat)) (attr : List F)
    (he : EdgesIn edges size) (hn : NoLoops edges) (hlen : attr.length = edges.length) :
    ((∃ comp, ringComplex g lib agg (some x) edges (some attr) size y maxK down true initRings = .ok comp) ↔
      Agree edges attr) ∧
    (¬ Agree edges attr →
      ringComplex g lib agg (some x) edges (some attr) size y maxK down true initRings = .error .assertion) ∧
    ∀ comp, ringComplex g lib agg (some x) edges (some attr) size y maxK down true initRings = .ok comp →
      ∃ t, buildTablesWithRings lib edges (g.inserted (insertions edges size)) size maxK = .ok t ∧
        (∀ u v, (u, v) ∈ edges → ∃ c : Nat, ∃ s : List Nat, (t.level 1)[c]? = some s ∧ s.Perm [u, v]) ∧
        (edges ≠ [] → ∃ rows, comp.attr 1 Cochain.x = some rows ∧ rows.length = (t.level 1).length ∧
          ∀ (i c : Nat) (u v : Nat) (s : List Nat), edges[i]? = some (u, v) → (t.level 1)[c]? = some s →
            s.Perm [u, v] → rows[c]? = attr[i]?) := by
  have hfail : ¬ Agree edges attr →
      ringComplex g lib agg (some x) edges (some attr) size y maxK down true initRings = .error .assertion := by
    intro h
    have rd := ringData_of hg hl he h0 maxK
    have hne : edges ≠ [] := by
      rintro rfl
      exact h (fun i j e e' hi => by simp at hi)
    obtain ⟨e, hm⟩ := List.exists_mem_of_ne_nil _ hne
    have hd := (dims_inserted_two hg he h0).mpr ⟨_, _, noLoops_joined hn hm⟩
    rw [ringComplex_eq hg hl he hn h0 hx hy rfl rfl, edgeRows_some (ringDims_ge rd), if_pos ⟨rfl, by omega⟩,
      edgeFeatures_fail (fun e hm => canon_mem hg he hn hm) (Nat.le_of_eq hlen.symm) h]
    rfl
  refine ⟨⟨?_, ?_⟩, hfail, ?_⟩
  · rintro ⟨comp, h⟩
    by_contra hna
    rw [hfail hna] at h
    exact absurd h (by simp)
  · intro h
    obtain ⟨t, comp, -, h2, -⟩ := ring_lifted (agg := agg) (maxK := maxK) (down := down) (attr := some attr)
      (initEdges := true) (initRings := initRings) hg hl he hn h0 hx hy
      (fun a e => by obtain rfl := Option.some.inj e; exact ⟨hlen, h⟩)
    exact ⟨comp, h2⟩
  · intro comp hc
    have h : Agree edges attr := by
      by_contra hna
      rw [hfail hna] at hc
      exact absurd hc (by simp)
    obtain ⟨t, comp', h1, h2, h3, h4, h5, h6, -, -, -, -, f4, -⟩ := ring_lifted (agg := agg) (maxK := maxK)
      (down := down) (attr := some attr) (initEdges := true) (initRings := initRings) hg hl he hn h0 hx hy
      (fun a e => by obtain rfl := Option.some.inj e; exact ⟨hlen, h⟩)
    rw [hc] at h2
    obtain rfl := Except.ok.inj h2
    have rd := ringData_of hg hl he h0 maxK
    have h1' := buildTablesWithRings_ok hg hl he h0 maxK rfl rfl
    have hcl : t.cells.length = ringDims (g.inserted (insertions edges size)) (getRings lib edges maxK) := by
      rw [h1] at h1'
      rw [Except.ok.inj h1']
      simp
    have hl1 : t.level 1 = (g.inserted (insertions edges size)).cellsOf size 1 := h6 1
    refine ⟨t, h1, ?_, ?_⟩
    · intro u v hm
      have := canon_mem hg he hn hm
      rw [← hl1] at this
      obtain ⟨c, hc⟩ := List.mem_iff_getElem?.mp this
      exact ⟨c, _, hc, sortedNat_perm _⟩
    · intro hne
      obtain ⟨e, hm⟩ := List.exists_mem_of_ne_nil _ hne
      have hd := (dims_inserted_two hg he h0).mpr ⟨_, _, noLoops_joined hn hm⟩
      have := ringDims_ge rd
      obtain ⟨rows, r1, r2, r3⟩ := f4 rfl (by omega) attr rfl
      refine ⟨rows, r1, r2, fun i c u v s hi hs hp => r3 i (u, v) c hi ?_⟩
      rw [hs]
      have hs' := List.mem_of_getElem? hs
      rw [hl1] at hs'
      obtain ⟨a, b, hab, rfl, -⟩ := (rd.edge s).mp hs'
      have e1 : sortedNat [a, b] = sortedNat [u, v] := (sortedNat_eq_iff _ _).mpr hp
      rw [sortedNat_pair, if_pos (by omega)] at e1
      exact congrArg some e1

/-- **C33** The order of the columns does not matter: if the columns with their features are the same up to
order, both liftings succeed or both fail, and an edge has the same features in both. -/
theorem C33_order_of_columns_does_not_matter (edges edges' : List (Nat × Nat)) (attr attr' : List F)
    (he : EdgesIn edges size) (hn : NoLoops edges) (hlen : attr.length = edges.length)
    (hlen' : attr'.length = edges'.length) (hp : (edges.zip attr).Perm (edges'.zip attr')) :
    ((∃ comp, ringComplex g lib agg (some x) edges (some attr) size y maxK down true initRings = .ok comp) ↔
      (∃ comp, ringComplex g lib agg (some x) edges' (some attr') size y maxK down true initRings = .ok comp)) ∧
    ∀ comp comp',
      ringComplex g lib agg (some x) edges (some attr) size y maxK down true initRings = .ok comp →
      ringComplex g lib agg (some x) edges' (some attr') size y maxK down true initRings = .ok comp' →
      ∃ t t', buildTablesWithRings lib edges (g.inserted (insertions edges size)) size maxK = .ok t ∧
        buildTablesWithRings lib edges' (g.inserted (insertions edges' size)) size maxK = .ok t' ∧
        (∀ s, s ∈ t.level 1 ↔ s ∈ t'.level 1) ∧
        ∀ (c c' : Nat) (s : List Nat), (t.level 1)[c]? = some s → (t'.level 1)[c']? = some s →
          ((comp.attr 1 Cochain.x).getD [])[c]? = ((comp'.attr 1 Cochain.x).getD [])[c']? := by
  have hz : ∀ {es : List (Nat × Nat)} {at' : List F}, at'.length = es.length → ∀ e f,
      (e, f) ∈ es.zip at' ↔ ∃ i : Nat, es[i]? = some e ∧ at'[i]? = some f := by
    intro es at' hl e f
    rw [List.mem_iff_getElem?]
    simp only [List.getElem?_zip_eq_some]
  have hedge : ∀ e, e ∈ edges ↔ e ∈ edges' := by
    intro e
    have h1 : (edges.zip attr).map Prod.fst = edges := List.map_fst_zip (by omega)
    have h2 : (edges'.zip attr').map Prod.fst = edges' := List.map_fst_zip (by omega)
    have := (hp.map Prod.fst).mem_iff (a := e)
    rwa [h1, h2] at this
  have he' : EdgesIn edges' size := fun e hm => he e ((hedge e).mpr hm)
  have hn' : NoLoops edges' := fun e hm => hn e ((hedge e).mpr hm)
  have key : ∀ {es es' : List (Nat × Nat)} {a a' : List F}, a.length = es.length → a'.length = es'.length →
      (es.zip a).Perm (es'.zip a') → Agree es a → Agree es' a' := by
    intro es es' a a' hl hl' hp h i j e e' hi hj hee
    obtain ⟨f, hf⟩ : ∃ f, a'[i]? = some f :=
      ⟨_, List.getElem?_eq_getElem (by have := lt_of_get hi; omega)⟩
    obtain ⟨f', hf'⟩ : ∃ f, a'[j]? = some f :=
      ⟨_, List.getElem?_eq_getElem (by have := lt_of_get hj; omega)⟩
    obtain ⟨i0, a1, a2⟩ := (hz hl e f).mp (hp.mem_iff.mpr ((hz hl' e f).mpr ⟨i, hi, hf⟩))
    obtain ⟨j0, b1, b2⟩ := (hz hl e' f').mp (hp.mem_iff.mpr ((hz hl' e' f').mpr ⟨j, hj, hf'⟩))
    rw [hf, hf', ← a2, ← b2]
    exact h i0 j0 e e' a1 b1 hee
  obtain ⟨c1, -, c3⟩ := C33_edge_features_attached_or_rejected g hg lib hl agg x size y maxK down initRings
    h0 hx hy edges attr he hn hlen
  obtain ⟨d1, -, d3⟩ := C33_edge_features_attached_or_rejected g hg lib hl agg x size y maxK down initRings
    h0 hx hy edges' attr' he' hn' hlen'
  refine ⟨?_, ?_⟩
  · rw [c1, d1]
    exact ⟨key hlen hlen' hp, key hlen' hlen hp.symm⟩
  · intro comp comp' h h'
    obtain ⟨t, t1, -, t3⟩ := c3 comp h
    obtain ⟨t', t1', -, t3'⟩ := d3 comp' h'
    obtain ⟨q, q1, -, -, -, q5, -⟩ := C23_ring_ids_are_consecutive_and_unique g hg lib hl edges size maxK he h0
    obtain ⟨q', q1', -, -, -, q5', -⟩ := C23_ring_ids_are_consecutive_and_unique g hg lib hl edges' size maxK
      he' h0
    rw [t1] at q1
    rw [t1'] at q1'
    obtain rfl := Except.ok.inj q1
    obtain rfl := Except.ok.inj q1'
    refine ⟨t, t', t1, t1', ?_, ?_⟩
    · intro s
      rw [q5, q5']
      simp only [hedge]
    · intro c c' s hs hs'
      obtain ⟨u, v, huv, rfl, hm⟩ := (q5 s).mp (List.mem_of_getElem? hs)
      obtain ⟨a, b, hm, hperm⟩ : ∃ a b, (a, b) ∈ edges ∧ [u, v].Perm [a, b] := by
        rcases hm with hm | hm
        · exact ⟨u, v, hm, List.Perm.refl _⟩
        · exact ⟨v, u, hm, List.Perm.swap _ _ _⟩
      have hm' := (hedge _).mp hm
      obtain ⟨i, hi⟩ := List.mem_iff_getElem?.mp hm
      obtain ⟨f, hf⟩ : ∃ f, attr[i]? = some f :=
        ⟨_, List.getElem?_eq_getElem (by have := lt_of_get hi; omega)⟩
      obtain ⟨i', hi', hf'⟩ := (hz hlen' (a, b) f).mp (hp.mem_iff.mp ((hz hlen (a, b) f).mpr ⟨i, hi, hf⟩))
      obtain ⟨rows, r1, -, r3⟩ := t3 (List.ne_nil_of_mem hm)
      obtain ⟨rows', r1', -, r3'⟩ := t3' (List.ne_nil_of_mem hm')
      rw [r1, r1', Option.getD_some, Option.getD_some, r3 i c a b _ hi hs hperm,
        r3' i' c' a b _ hi' hs' hperm, hf, hf']

end

/-! The shed: its edge cells are `34, 24, 23, 12, 03, 01`. -/

/-- The ring complex of the shed with the given features of its edges. -/
def shedLift (attr : Option (List Nat)) (initRings := false) : Py (Complex Nat Nat) :=
  ringComplex Fixtures.plainGudhi Fixtures.plainRings List.sum (some [1, 2, 3, 4, 5]) Fixtures.shed attr 5
    (some [7]) 4 true true initRings

example : ((shedLift (some Fixtures.shedAttr)).map fun c => c.attr 1 Cochain.x) =
    .ok (some [34, 24, 23, 12, 30, 10]) := by decide +kernel

example : ((shedLift (some Fixtures.shedAttr)).map fun c => c.attr 2 Cochain.boundaryIndex) =
    .ok (some [(2, 0), (1, 0), (0, 0), (5, 1), (4, 1), (3, 1), (2, 1)]) := by decide +kernel

example : ((shedLift none true).map fun c => (c.attr 1 Cochain.x, c.attr 2 Cochain.x)) =
    .ok (some [9, 8, 7, 5, 5, 3], some [12, 10]) := by decide +kernel

/-- The two directions of the edge `01` disagree. -/
example : (shedLift (some [10, 11, 12, 12, 23, 23, 30, 30, 24, 24, 34, 34])).map (fun c => c.y) =
    .error .assertion := by decide +kernel

example : EdgesIn Fixtures.shed 5 ∧ NoLoops Fixtures.shed ∧ Fixtures.shedAttr.length = Fixtures.shed.length :=
  ⟨Fixtures.shed_in, Fixtures.shed_noLoops, rfl⟩

theorem isOk_iff {A : Type} {e : Py A} : (e.map fun _ => ()) = .ok () ↔ ∃ a, e = .ok a := by
  cases e with
  | ok a => exact ⟨fun _ => ⟨a, rfl⟩, fun _ => rfl⟩
  | error e =>
    constructor
    · intro h; cases h
    · rintro ⟨a, h⟩; cases h

example : EdgeInput Fixtures.shed (some Fixtures.shedAttr) := by
  intro a h
  obtain rfl := Option.some.inj h
  exact ⟨rfl, (C33_edge_features_attached_or_rejected (L := Nat) Fixtures.plainGudhi Fixtures.plainGudhi_ok
    Fixtures.plainRings Fixtures.plainRings_ok List.sum [1, 2, 3, 4, 5] 5 (some [7]) 4 true false (by omega) rfl
    (by intro l h; left; rw [← Option.some.inj h]; rfl) Fixtures.shed Fixtures.shedAttr Fixtures.shed_in
    Fixtures.shed_noLoops rfl).1.mp (isOk_iff.mp (by decide +kernel))⟩

/-! ### Graphs with loops -/

/-- **C28** The hypothesis on loops cannot be dropped: a graph whose edges are all loops is rejected, because
the simplex tree has no edges while the edge index is not empty. -/
theorem C28_ring_only_loops_fails [DecidableEq F] (g : Gudhi) (hg : g.Ok) (lib : RingLib) (agg : List F → F)
    (x : List F) (edges : List (Nat × Nat)) (attr : Option (List F)) (size : Nat) (y : Option (List L))
    (maxK : Nat) (down initEdges initRings : Bool) (he : EdgesIn edges size) (h0 : 0 < size)
    (hne : edges ≠ []) (hloops : ∀ e ∈ edges, e.1 = e.2) :
    ringComplex g lib agg (some x) edges attr size y maxK down initEdges initRings = .error .assertion := by
  have hd : (g.inserted (insertions edges size)).dims = 1 := by
    have h1 := dims_inserted_le hg he h0
    have h2 := dims_pos (holds_inserted hg he) h0
    have h3 : (g.inserted (insertions edges size)).dims ≠ 2 := by
      intro h
      obtain ⟨u, v, hj⟩ := (dims_inserted_two hg he h0).mp h
      rcases hj.2 with h | h
      · exact hj.1 (hloops _ h)
      · exact hj.1 (hloops _ h).symm
    omega
  have hl : (edges.length == 0) = false := by
    cases edges with
    | nil => exact absurd rfl hne
    | cons e es => rfl
  unfold ringComplex
  dsimp only
  rw [hd, hl]
  rfl

example : ([(0, 0)] : List (Nat × Nat)) ≠ [] ∧ EdgesIn [(0, 0)] 2 := by
  unfold EdgesIn; decide

/-- A loop beside an edge is dropped silently if the edges have no features, and is a `KeyError` if they
have. -/
example : ((ringComplex (L := Nat) Fixtures.plainGudhi Fixtures.plainRings List.sum (some [1, 2])
      [(0, 1), (1, 1)] none 2 none 3).map fun c => c.attr 1 Cochain.x) = .ok (some [3]) ∧
    ((ringComplex (L := Nat) Fixtures.plainGudhi Fixtures.plainRings List.sum (some [1, 2])
      [(0, 1), (1, 1)] (some [5, 6]) 2 none 3).map fun c => c.attr 1 Cochain.x) = .error .key := by
  decide +kernel

end Verif
