import Verif.FixturesLift
import Verif.FixturesQ
import Verif.Props.Models

/-!
# Properties of the clique lifting (C23-C30, C34)

The concrete graph beside the theorems is `Fixtures.kite`: a triangle, a pendant edge and an isolated
vertex, with a repeated edge and an edge in both directions; `Fixtures.plainGudhi` is a simplex tree
library that meets the contract `Gudhi.Ok`.
-/

namespace Verif

variable {F L R : Type}

/-- The cells of dimension `d` in the order of the table that numbers them. -/
def Tables.level (t : Tables) (d : Nat) : List (List Nat) := t.cells[d]?.getD []

/-- The levels of the tables built from a simplex tree. -/
theorem level_of_tables {st : SimplexTree} {size : Nat} (h : st.Holds size) (d : Nat) :
    Tables.level ⟨tab st.dims (st.cellsOf size), tab st.dims fun d => (st.cellsOf size d).zipIdx⟩ d =
      st.cellsOf size d := by
  unfold Tables.level
  by_cases hd : d < st.dims
  · simp only [tab_get _ hd, Option.getD_some]
  · simp only [tab_get_none _ (by omega : st.dims ≤ d), Option.getD_none]
    symm
    rw [List.eq_nil_iff_forall_not_mem]
    intro s hs
    obtain ⟨h1, h2⟩ := (mem_cellsOf h).mp hs
    have := length_le_dims h1
    omega

/-! ### C23 -/

/-- **C23** The tables: one per dimension, a cell of every dimension exactly once, the vertex `v` at
place `v`, the others in the order of the enumeration; the dictionary gives exactly the place. -/
theorem C23_ids_are_consecutive_and_unique (st : SimplexTree) (size : Nat) (h : st.Holds size)
    (h0 : 0 < size) :
    ∃ t, buildTables st size = .ok t ∧ t.cells.length = st.dims ∧ t.ids.length = st.dims ∧
      (∀ v, v < size → (t.level 0)[v]? = some [v]) ∧ (t.level 0).length = size ∧
      (∀ d, 0 < d → t.level d = st.simplices.filter fun s => decide (s.length = d + 1)) ∧
      (∀ d, (t.level d).Nodup) ∧
      (∀ d s, s ∈ t.level d ↔ s ∈ st.simplices ∧ s.length = d + 1) ∧
      (∀ (d : Nat) (m : Dict (List Nat) Nat), t.ids[d]? = some m →
        ∀ s i, m.get? s = some i ↔ (t.level d)[i]? = some s) := by
  have hlev := level_of_tables h
  refine ⟨_, buildTables_ok h h0, by simp [tab], by simp [tab], ?_, ?_, ?_, ?_, ?_, ?_⟩
  · intro v hv
    rw [hlev]
    simp [SimplexTree.cellsOf, hv]
  · rw [hlev]; simp [SimplexTree.cellsOf]
  · intro d hd
    rw [hlev]
    unfold SimplexTree.cellsOf
    rw [if_neg (by omega)]
  · intro d
    rw [hlev]
    exact nodup_cellsOf h d
  · intro d s
    rw [hlev]
    exact mem_cellsOf h
  · intro d m hm s i
    rw [hlev]
    have hd : d < st.dims := by have := lt_of_get hm; simpa [tab] using this
    rw [tab_get _ hd] at hm
    rw [← Option.some.inj hm, Dict.get?_zipIdx]
    constructor
    · intro e
      by_cases hs : s ∈ st.cellsOf size d
      · rw [if_pos hs] at e
        exact (idxOf_iff (nodup_cellsOf h d) hs).mp (Option.some.inj e)
      · rw [if_neg hs] at e
        exact absurd e (by simp)
    · intro e
      have hs := List.mem_of_getElem? e
      rw [if_pos hs]
      exact congrArg some ((idxOf_iff (nodup_cellsOf h d) hs).mpr e)

example : ∃ t, buildTables Fixtures.kiteTree 5 = .ok t ∧ t.level 1 = [[2, 3], [1, 2], [0, 2], [0, 1]] ∧
    t.level 2 = [[0, 1, 2]] := by
  refine ⟨_, rfl, ?_⟩ <;> decide

example : Fixtures.kiteTree.Holds 5 := Fixtures.kiteTree_holds

/-! ### C24-C26 -/

section

variable {st : SimplexTree} {size : Nat}

/-- What is proved about the lifted complex, relative to the tables. -/
theorem lifted_of_holds (agg : List F → F) (x : List F) (y : Option (List L)) (down : Bool)
    (h : st.Holds size) (h0 : 0 < size) (hx : x.length = size)
    (hy : ∀ l, y = some l → l.length = 1 ∨ l.length = size) :
    ∃ t comp, buildTables st size = .ok t ∧ liftTree agg x st size y down = .ok comp ∧
      LiftsTo comp t.level st.dims IsFacet down ∧ comp.Valid := by
  obtain ⟨h1, h2⟩ := liftTree_ok (agg := agg) (down := down) h h0 hx hy
  have cd := cellData_simplices h h0
  have hl := complexOf_lifts (vy := vertexLabels y) (down := down) cd h2 (complexLabel y)
  refine ⟨_, _, buildTables_ok h h0, h1, ?_, complexOf_valid cd h2 _⟩
  have hlev := funext (level_of_tables h)
  rw [hlev]
  exact hl

end

theorem tagged_filter_length {A B : Type} (l : List A) (g : A → List B) (i : Nat) :
    ((tagged l g).filter fun p => decide (p.2 = i)).length = ((l[i]?).map fun c => (g c).length).getD 0 := by
  have key : ∀ k, (((l.zipIdx k).flatMap fun ci => (g ci.1).map fun b => (b, ci.2)).filter
      fun p => decide (p.2 = i)).length =
      if k ≤ i then ((l[i - k]?).map fun c => (g c).length).getD 0 else 0 := by
    induction l with
    | nil => intro k; simp
    | cons c l ih =>
      intro k
      rw [List.zipIdx_cons, List.flatMap_cons, List.filter_append, List.length_append, ih (k + 1)]
      by_cases hk : k = i
      · subst hk
        rw [List.filter_eq_self.mpr (by simp)]
        simp
      · rw [List.filter_eq_nil_iff.mpr (by simp [hk])]
        by_cases hki : k ≤ i
        · obtain ⟨j, hj⟩ : ∃ j, i - k = j + 1 := ⟨i - k - 1, by omega⟩
          rw [if_pos hki, if_pos (by omega), hj, show i - (k + 1) = j by omega]
          simp
        · rw [if_neg hki, if_neg (by omega)]
          simp
  simpa [tagged] using key 0

/-- **C24** The boundary incidence of a lifted complex has the column `(f, c)` iff cell `f` is a face of
codimension one of cell `c`, each once; a simplex of dimension `d` is in exactly `d + 1` columns; the
vertices have no boundary. -/
theorem C24_incidence_is_exactly_the_faces (agg : List F → F) (x : List F) (st : SimplexTree)
    (size : Nat) (y : Option (List L)) (down : Bool) (h : st.Holds size) (h0 : 0 < size)
    (hx : x.length = size) (hy : ∀ l, y = some l → l.length = 1 ∨ l.length = size) :
    ∃ t comp, buildTables st size = .ok t ∧ liftTree agg x st size y down = .ok comp ∧
      (∀ d, comp.cellsIn d = (t.level d).length) ∧
      (∀ d, ((comp.attr d Cochain.boundaryIndex).getD []).Nodup) ∧
      (∀ d f c, (f, c) ∈ (comp.attr (d + 1) Cochain.boundaryIndex).getD [] ↔
        ∃ s u, (t.level d)[f]? = some s ∧ (t.level (d + 1))[c]? = some u ∧ s.Sublist u ∧
          s.length + 1 = u.length) ∧
      (∀ d c, c < comp.cellsIn (d + 1) →
        (((comp.attr (d + 1) Cochain.boundaryIndex).getD []).filter fun p => decide (p.2 = c)).length =
          d + 2) ∧
      comp.attr 0 Cochain.boundaryIndex = none := by
  obtain ⟨t, comp, h1, h2, hl, -⟩ := lifted_of_holds agg x y down h h0 hx hy
  obtain ⟨t', h1', c1, -, -, -, -, -, c5, -⟩ := C23_ids_are_consecutive_and_unique st size h h0
  rw [h1] at h1'
  cases h1'
  have hbeyond : ∀ d, st.dims ≤ d → t.level d = [] := by
    intro d hd
    rw [List.eq_nil_iff_forall_not_mem]
    intro s hs
    have := (c5 d s).mp hs
    have := length_le_dims this.1
    omega
  have hcount : ∀ d, comp.cellsIn d = (t.level d).length := by
    intro d
    by_cases hd : d < st.dims
    · exact hl.count d hd
    · rw [hbeyond d (by omega)]
      obtain ⟨e1, e2⟩ := liftTree_ok (agg := agg) (down := down) h h0 hx hy
      rw [h2] at e1
      rw [Except.ok.inj e1, complexOf_cellsIn (cellData_simplices h h0) e2, if_neg hd]
      rfl
  refine ⟨t, comp, h1, h2, hcount, hl.bndNodup, ?_, ?_, hl.vertices.1⟩
  · intro d f c
    rw [hl.bnd]
    constructor
    · rintro ⟨-, s, u, a, b, e⟩
      exact ⟨s, u, a, b, e.1, e.2⟩
    · rintro ⟨s, u, a, b, e, e'⟩
      refine ⟨?_, s, u, a, b, e, e'⟩
      by_contra hd
      rw [hbeyond (d + 1) (by omega)] at b
      simp at b
  · intro d c hc
    have hd : d + 1 < st.dims := by
      by_contra hd
      rw [hcount, hbeyond (d + 1) (by omega)] at hc
      simp at hc
    obtain ⟨e1, e2⟩ := liftTree_ok (agg := agg) (down := down) h h0 hx hy
    rw [h2] at e1
    rw [Except.ok.inj e1, complexOf_cellsIn (cellData_simplices h h0) e2, if_pos hd] at hc
    rw [Except.ok.inj e1, complexOf_attr, if_pos hd]
    simp only [cochainOf]
    rw [boundaryIndexOf_getD, tagged_filter_length]
    simp only [tableRow, if_neg (Nat.succ_ne_zero d), List.getElem?_map]
    rw [List.getElem?_eq_getElem hc]
    simp only [Option.map_some, Option.getD_some, id_eq, List.length_map, getSimplexBoundaries]
    obtain ⟨m1, m2⟩ := (mem_cellsOf h).mp (List.getElem_mem hc)
    rw [length_combinations_pred (h.simplex _ m1).1, m2]

example : ∃ comp, liftTree List.sum [1, 2, 3, 4, 5] Fixtures.kiteTree 5 (some [7]) true = .ok comp ∧
    comp.attr 1 Cochain.boundaryIndex = some [(2, 0), (3, 0), (1, 1), (2, 1), (0, 2), (2, 2), (0, 3), (1, 3)] ∧
    comp.attr 2 Cochain.boundaryIndex = some [(3, 0), (2, 0), (1, 0)] := by
  refine ⟨_, rfl, ?_⟩ <;> decide

/-- **C25** The upper adjacency of a lifted complex, with the shared ids, has the column `(a, b)` with
shared cell `c` iff `a` and `b` are different faces of the cell `c`, each triple once; hence it is
symmetric and loop-free. -/
theorem C25_upper_adjacency_is_sharing_a_coface (agg : List F → F) (x : List F) (st : SimplexTree)
    (size : Nat) (y : Option (List L)) (down : Bool) (h : st.Holds size) (h0 : 0 < size)
    (hx : x.length = size) (hy : ∀ l, y = some l → l.length = 1 ∨ l.length = size) :
    ∃ t comp, buildTables st size = .ok t ∧ liftTree agg x st size y down = .ok comp ∧
      ∀ d, ∃ up sc, (comp.attr d Cochain.upperIndex).getD [] = up ∧
        (comp.attr d Cochain.sharedCoboundaries).getD [] = sc ∧ up.length = sc.length ∧
        (up.zip sc).Nodup ∧
        (∀ a b c, ((a, b), c) ∈ up.zip sc ↔ a ≠ b ∧ ∃ s s' u, (t.level d)[a]? = some s ∧
          (t.level d)[b]? = some s' ∧ (t.level (d + 1))[c]? = some u ∧ s.Sublist u ∧ s'.Sublist u) ∧
        (∀ a b c, ((a, b), c) ∈ up.zip sc → ((b, a), c) ∈ up.zip sc ∧ a ≠ b) := by
  obtain ⟨t, comp, h1, h2, hl, -⟩ := lifted_of_holds agg x y down h h0 hx hy
  obtain ⟨t', h1', -, -, -, -, -, -, c5, -⟩ := C23_ids_are_consecutive_and_unique st size h h0
  rw [h1] at h1'
  cases h1'
  have hlen : ∀ (d i : Nat) (s : List Nat), (t.level d)[i]? = some s → s.length = d + 1 :=
    fun d i s e => ((c5 d s).mp (List.mem_of_getElem? e)).2
  have hup : ∀ d a b c, ((a, b), c) ∈ ((comp.attr d Cochain.upperIndex).getD []).zip
      ((comp.attr d Cochain.sharedCoboundaries).getD []) ↔ a ≠ b ∧ ∃ s s' u, (t.level d)[a]? = some s ∧
          (t.level d)[b]? = some s' ∧ (t.level (d + 1))[c]? = some u ∧ s.Sublist u ∧ s'.Sublist u := by
    intro d a b c
    rw [hl.up]
    constructor
    · rintro ⟨-, hne, s, s', u, e1, e2, e3, f1, f2⟩
      exact ⟨hne, s, s', u, e1, e2, e3, f1.1, f2.1⟩
    · rintro ⟨hne, s, s', u, e1, e2, e3, f1, f2⟩
      refine ⟨?_, hne, s, s', u, e1, e2, e3, ⟨f1, ?_⟩, ⟨f2, ?_⟩⟩
      · have := (c5 _ u).mp (List.mem_of_getElem? e3)
        have := length_le_dims this.1
        omega
      · rw [hlen _ _ _ e1, hlen _ _ _ e3]
      · rw [hlen _ _ _ e2, hlen _ _ _ e3]
  refine ⟨t, comp, h1, h2, fun d => ⟨_, _, rfl, rfl, hl.upBoth d, hl.upNodup d, hup d, ?_⟩⟩
  intro a b c hm
  obtain ⟨hne, s, s', u, e1, e2, e3, f1, f2⟩ := (hup d a b c).mp hm
  exact ⟨(hup d b a c).mpr ⟨hne.symm, s', s, u, e2, e1, e3, f2, f1⟩, hne⟩

example : ∃ comp, liftTree List.sum [1, 2, 3, 4, 5] Fixtures.kiteTree 5 (some [7]) true = .ok comp ∧
    comp.attr 1 Cochain.upperIndex = some [(1, 2), (2, 1), (1, 3), (3, 1), (2, 3), (3, 2)] ∧
    comp.attr 1 Cochain.sharedCoboundaries = some [0, 0, 0, 0, 0, 0] ∧
    comp.attr 0 Cochain.sharedCoboundaries = some [0, 0, 1, 1, 2, 2, 3, 3] := by
  refine ⟨_, rfl, ?_⟩ <;> decide

/-- The complex without lower adjacencies. -/
def Complex.withoutLower (comp : Complex F L) : Complex F L :=
  { comp with cochains := comp.cochains.map fun c => { c with lowerIndex := none, sharedBoundaries := none } }

/-- **C26** The lower adjacency, when asked for, has the column `(a, b)` with shared cell `s` iff `a` and
`b` are different cells with the face `s`, each triple once. -/
theorem C26_lower_adjacency_is_sharing_a_face (agg : List F → F) (x : List F) (st : SimplexTree)
    (size : Nat) (y : Option (List L)) (h : st.Holds size) (h0 : 0 < size)
    (hx : x.length = size) (hy : ∀ l, y = some l → l.length = 1 ∨ l.length = size) :
    ∃ t comp, buildTables st size = .ok t ∧ liftTree agg x st size y true = .ok comp ∧
      comp.attr 0 Cochain.lowerIndex = none ∧ comp.attr 0 Cochain.sharedBoundaries = none ∧
      ∀ d, ∃ low sb, (comp.attr (d + 1) Cochain.lowerIndex).getD [] = low ∧
        (comp.attr (d + 1) Cochain.sharedBoundaries).getD [] = sb ∧ low.length = sb.length ∧
        (low.zip sb).Nodup ∧
        (∀ a b s, ((a, b), s) ∈ low.zip sb ↔ a ≠ b ∧ ∃ u u' f, (t.level (d + 1))[a]? = some u ∧
          (t.level (d + 1))[b]? = some u' ∧ (t.level d)[s]? = some f ∧ f.Sublist u ∧ f.Sublist u') := by
  obtain ⟨t, comp, h1, h2, hl, -⟩ := lifted_of_holds agg x y true h h0 hx hy
  obtain ⟨t', h1', -, -, -, -, -, -, c5, -⟩ := C23_ids_are_consecutive_and_unique st size h h0
  rw [h1] at h1'
  cases h1'
  have hlen : ∀ (d i : Nat) (s : List Nat), (t.level d)[i]? = some s → s.length = d + 1 :=
    fun d i s e => ((c5 d s).mp (List.mem_of_getElem? e)).2
  refine ⟨t, comp, h1, h2, hl.vertices.2.1, hl.vertices.2.2,
    fun d => ⟨_, _, rfl, rfl, hl.downBoth (d + 1), hl.downNodup (d + 1), ?_⟩⟩
  intro a b s
  rw [hl.down]
  constructor
  · rintro ⟨-, -, hne, u, u', f, e1, e2, e3, f1, f2⟩
    exact ⟨hne, u, u', f, e1, e2, e3, f1.1, f2.1⟩
  · rintro ⟨hne, u, u', f, e1, e2, e3, f1, f2⟩
    refine ⟨rfl, ?_, hne, u, u', f, e1, e2, e3, ⟨f1, ?_⟩, ⟨f2, ?_⟩⟩
    · have := (c5 _ u).mp (List.mem_of_getElem? e1)
      have := length_le_dims this.1
      omega
    · rw [hlen _ _ _ e1, hlen _ _ _ e3]
    · rw [hlen _ _ _ e2, hlen _ _ _ e3]

example := C26_lower_adjacency_is_sharing_a_face List.sum [1, 2, 3, 4, 5] Fixtures.kiteTree 5 (some [7])
  Fixtures.kiteTree_holds (by decide) rfl (by simp)

/-- **C26** Without the switch the result is the same complex without lower adjacencies. -/
theorem C26_switch_only_removes_lower_adjacency (agg : List F → F) (x : List F) (st : SimplexTree)
    (size : Nat) (y : Option (List L)) (h : st.Holds size) (h0 : 0 < size)
    (hx : x.length = size) (hy : ∀ l, y = some l → l.length = 1 ∨ l.length = size) :
    ∃ comp, liftTree agg x st size y true = .ok comp ∧
      liftTree agg x st size y false = .ok comp.withoutLower := by
  obtain ⟨h1, -⟩ := liftTree_ok (agg := agg) (down := true) h h0 hx hy
  obtain ⟨h2, -⟩ := liftTree_ok (agg := agg) (down := false) h h0 hx hy
  refine ⟨_, h1, h2.trans ?_⟩
  simp only [ok_inj, Complex.withoutLower, complexOf, map_tab]
  rfl

example := C26_switch_only_removes_lower_adjacency List.sum [1, 2, 3, 4, 5] Fixtures.kiteTree 5 (some [7])
  Fixtures.kiteTree_holds (by decide) rfl (by simp)

example : ∃ comp, liftTree List.sum [1, 2, 3, 4, 5] Fixtures.kiteTree 5 (some [7]) true = .ok comp ∧
    comp.attr 1 Cochain.lowerIndex =
      some [(2, 3), (3, 2), (1, 3), (3, 1), (0, 1), (1, 0), (0, 2), (2, 0), (1, 2), (2, 1)] ∧
    comp.attr 1 Cochain.sharedBoundaries = some [0, 0, 1, 1, 2, 2, 2, 2, 2, 2] ∧
    comp.attr 2 Cochain.lowerIndex = none := by
  refine ⟨_, rfl, ?_⟩ <;> decide

/-! ### C27 -/

/-- **C27** The cells of dimension `d` of the clique complex are exactly the sets of `d + 1` pairwise
adjacent vertices, up to the maximal dimension `k` (the edges stay if `k` is zero), isolated vertices
included. -/
theorem C27_cells_are_the_cliques (g : Gudhi) (hg : g.Ok) (agg : List F → F) (x : List F)
    (edges : List (Nat × Nat)) (size k : Nat) (y : Option (List L)) (down : Bool)
    (he : EdgesIn edges size) (h0 : 0 < size) (hx : x.length = size)
    (hy : ∀ l, y = some l → l.length = 1 ∨ l.length = size) :
    ∃ t comp, buildTables (g.expanded (insertions edges size) k) size = .ok t ∧
      cliqueComplex g agg (some x) edges size k y down = .ok comp ∧
      (∀ d, comp.cellsIn d = (t.level d).length) ∧ (∀ d, (t.level d).Nodup) ∧
      (∀ d s, s ∈ t.level d ↔ s.Pairwise (· < ·) ∧ s.length = d + 1 ∧ (∀ v ∈ s, v < size) ∧
        (∀ u ∈ s, ∀ v ∈ s, u ≠ v → (u, v) ∈ edges ∨ (v, u) ∈ edges) ∧ d ≤ max k 1) := by
  have H := holds_expanded hg he k
  obtain ⟨t, comp, h1, h2, h3, -⟩ := C24_incidence_is_exactly_the_faces agg x _ size y down H h0 hx hy
  obtain ⟨t', h1', -, -, -, -, -, c4, c5, -⟩ := C23_ids_are_consecutive_and_unique _ size H h0
  rw [h1] at h1'
  cases h1'
  refine ⟨t, comp, h1, h2, h3, c4, fun d s => ?_⟩
  rw [c5, mem_expanded hg he]
  constructor
  · rintro ⟨⟨⟨⟨-, a⟩, b, c⟩, e⟩, f⟩
    exact ⟨a, f, b, fun u hu v hv hne => (c u hu v hv hne).2, by omega⟩
  · rintro ⟨a, f, b, c, e⟩
    refine ⟨⟨⟨⟨?_, a⟩, b, fun u hu v hv hne => ⟨hne, c u hu v hv hne⟩⟩, by omega⟩, f⟩
    rintro rfl
    simp at f

example := C27_cells_are_the_cliques Fixtures.plainGudhi Fixtures.plainGudhi_ok List.sum [1, 2, 3, 4, 5] Fixtures.kite 5 2
  (some [7]) true Fixtures.kite_in (by decide) rfl (by simp)

/-- The identity is an isomorphism between edge lists with the same adjacencies. -/
theorem graphIso_of_same {edges edges' : List (Nat × Nat)} (h : ∀ u v, Joined edges' u v ↔ Joined edges u v)
    (size : Nat) (x : List F) : GraphIso edges edges' size x x id where
  vertex := fun _ h => h
  inj := fun _ _ _ _ h => h
  joined := fun u v _ _ => h u v
  feat := fun _ _ => rfl

/-- **C27** The result does not depend on the order, the direction or the multiplicity of the edges: two
edge lists with the same adjacencies give the same cells, and the complexes are renumberings of each
other. -/
theorem C27_edge_list_does_not_matter (g : Gudhi) (hg : g.Ok) (agg : List R → R)
    (hagg : ∀ l l' : List R, l.Perm l' → agg l = agg l') (x : List R)
    (edges edges' : List (Nat × Nat)) (hsame : ∀ u v, Joined edges' u v ↔ Joined edges u v)
    (size k : Nat) (y : Option (List L)) (down : Bool) (he : EdgesIn edges size)
    (he' : EdgesIn edges' size) (h0 : 0 < size) (hx : x.length = size)
    (hy : ∀ l, y = some l → l.length = 1 ∨ l.length = size) :
    ∃ t t' comp comp', buildTables (g.expanded (insertions edges size) k) size = .ok t ∧
      buildTables (g.expanded (insertions edges' size) k) size = .ok t' ∧
      (∀ d s, s ∈ t'.level d ↔ s ∈ t.level d) ∧
      cliqueComplex g agg (some x) edges size k y down = .ok comp ∧
      cliqueComplex g agg (some x) edges' size k y down = .ok comp' ∧
      ∃ φ, Relabels comp.view comp'.view φ := by
  obtain ⟨t, c, h1, h2, -, -, h3⟩ := C27_cells_are_the_cliques g hg agg x edges size k y down he h0 hx hy
  obtain ⟨t', c', h1', h2', -, -, h3'⟩ := C27_cells_are_the_cliques g hg agg x edges' size k y down he' h0 hx hy
  obtain ⟨comp, comp', e1, e2, -, -, -, hφ⟩ := clique_relabels hg hg hagg (graphIso_of_same hsame size x) he he'
    h0 hx hx k hy hy down
  refine ⟨t, t', comp, comp', h1, h1', fun d s => ?_, e1, e2, hφ⟩
  rw [h3, h3']
  have hj : ∀ u v, u ≠ v → (((u, v) ∈ edges' ∨ (v, u) ∈ edges') ↔ ((u, v) ∈ edges ∨ (v, u) ∈ edges)) := by
    intro u v hne
    have := hsame u v
    unfold Joined at this
    simpa [hne] using this
  constructor
  · rintro ⟨a, b, c, e, f⟩
    exact ⟨a, b, c, fun u hu v hv hne => (hj u v hne).mp (e u hu v hv hne), f⟩
  · rintro ⟨a, b, c, e, f⟩
    exact ⟨a, b, c, fun u hu v hv hne => (hj u v hne).mpr (e u hu v hv hne), f⟩

/-- The kite without repetitions, in another order and direction. -/
example : Fixtures.plainGudhi.Ok ∧ EdgesIn Fixtures.kite 5 ∧
    (∀ u v, Joined [(2, 3), (0, 2), (2, 1), (0, 1)] u v ↔ Joined Fixtures.kite u v) := by
  refine ⟨Fixtures.plainGudhi_ok, Fixtures.kite_in, ?_⟩
  intro u v
  simp only [Joined, Fixtures.kite, List.mem_cons, Prod.mk.injEq, List.not_mem_nil, or_false]
  constructor
  · rintro ⟨h, (⟨rfl, rfl⟩ | ⟨rfl, rfl⟩ | ⟨rfl, rfl⟩ | ⟨rfl, rfl⟩) |
      (⟨rfl, rfl⟩ | ⟨rfl, rfl⟩ | ⟨rfl, rfl⟩ | ⟨rfl, rfl⟩)⟩ <;> decide
  · rintro ⟨h, (⟨rfl, rfl⟩ | ⟨rfl, rfl⟩ | ⟨rfl, rfl⟩ | ⟨rfl, rfl⟩ | ⟨rfl, rfl⟩ | ⟨rfl, rfl⟩) |
      (⟨rfl, rfl⟩ | ⟨rfl, rfl⟩ | ⟨rfl, rfl⟩ | ⟨rfl, rfl⟩ | ⟨rfl, rfl⟩ | ⟨rfl, rfl⟩)⟩ <;> decide

example : ((cliqueComplex Fixtures.plainGudhi List.sum (some [1, 2, 3, 4, 5]) Fixtures.kite 5 2
    (some [7]) true).toOption.map fun comp => (comp.attr 1 Cochain.x, comp.attr 2 Cochain.x)) =
      some (some [7, 5, 4, 3], some [6]) := by decide +kernel

/-! ### C28 -/

/-- **C28** Lifting a graph with one feature row per node to its clique complex succeeds, so none of the
assertions fires, and gives a valid complex with features everywhere; without features it stops at
its own assertion. -/
theorem C28_lifting_succeeds (g : Gudhi) (hg : g.Ok) (agg : List F → F) (x : List F)
    (edges : List (Nat × Nat)) (size k : Nat) (y : Option (List L)) (down : Bool)
    (he : EdgesIn edges size) (h0 : 0 < size) (hx : x.length = size)
    (hy : ∀ l, y = some l → l.length = 1 ∨ l.length = size) :
    (∃ comp, cliqueComplex g agg (some x) edges size k y down = .ok comp ∧ comp.Ready ∧
      comp.cellsIn 0 = size ∧ comp.dimension ≤ max k 1) ∧
    cliqueComplex g agg none edges size k y down = .error .assertion := by
  refine ⟨?_, rfl⟩
  have H := holds_expanded hg he k
  obtain ⟨h1, h2⟩ := liftTree_ok (agg := agg) (down := down) H h0 hx hy
  have cd := cellData_simplices H h0
  have hl := complexOf_lifts (vy := vertexLabels y) (down := down) cd h2 (complexLabel y)
  refine ⟨_, h1, ⟨complexOf_valid cd h2 _, ?_, hl.vertices.2.1⟩, ?_, ?_⟩
  · intro c hc
    obtain ⟨d, _, rfl⟩ := List.mem_map.mp hc
    rfl
  · rw [hl.count 0 cd.pos]
    simp [SimplexTree.cellsOf]
  · have hs := hl.size
    obtain ⟨s, hs', e⟩ := dims_attained cd.pos
    have := ((mem_expanded hg he).mp hs').2
    omega

example := C28_lifting_succeeds Fixtures.plainGudhi Fixtures.plainGudhi_ok List.sum [1, 2, 3, 4, 5] Fixtures.kite 5 2
  (some [7]) true Fixtures.kite_in (by decide) rfl (by simp)

/-- **C28** The one graph that cannot be lifted is the one without nodes. -/
theorem C28_empty_graph_fails (g : Gudhi) (hg : g.Ok) (agg : List F → F) (x : List F) (k : Nat)
    (y : Option (List L)) (down : Bool) :
    cliqueComplex g agg (some x) [] 0 k y down = .error .index := by
  have hnil : (g.expanded (insertions [] 0) k).simplices = [] := by
    rw [List.eq_nil_iff_forall_not_mem]
    intro s hs
    obtain ⟨⟨h1, -⟩, h2⟩ := (hg.mem' _ _ _).mp hs
    obtain ⟨v, hv⟩ := List.exists_mem_of_ne_nil _ h1
    rcases h2 with ⟨t, ht, -⟩ | ⟨-, h⟩
    · simp [insertions] at ht
    · obtain ⟨t, ht, -⟩ := h v hv v hv
      simp [insertions] at ht
  have hd : (g.expanded (insertions [] 0) k).dims = 0 := by
    unfold SimplexTree.dims
    rw [hnil]
    rfl
  simp only [cliqueComplex, liftTree, buildTables, hd]
  rfl

example : ∃ comp, cliqueComplex Fixtures.plainGudhi List.sum (some [1, 2, 3, 4, 5]) Fixtures.kite 5 2
    (some [7]) true = .ok comp ∧ comp.dimension = 2 ∧ comp.cellsIn 1 = 4 := by
  refine ⟨_, rfl, ?_⟩ <;> decide

/-! ### C29 -/

theorem forall₂_filterMap {x : List F} {s : List Nat} (h : ∀ v ∈ s, v < x.length) :
    List.Forall₂ (fun v r => x[v]? = some r) s (s.filterMap fun v => x[v]?) := by
  induction s with
  | nil => exact .nil
  | cons v s ih =>
    have hv := h v (by simp)
    rw [List.filterMap_cons, List.getElem?_eq_getElem hv]
    exact .cons (List.getElem?_eq_getElem hv) (ih fun u hu => h u (by simp [hu]))

/-- **C29** The constructed features: those of dimension 0 are the given ones; in every other dimension
there is one row per cell, the reduction of the rows of exactly the vertices of the cell. -/
theorem C29_features_combine_the_vertices (agg : List F → F) (x : List F)
    (cells : List (List (List Nat))) (hne : cells ≠ [])
    (h : ∀ t ∈ cells, ∀ c ∈ t, ∀ v ∈ c, v < x.length) :
    ∃ xs, constructFeatures agg x cells = .ok xs ∧ xs.length = cells.length ∧ xs[0]? = some x ∧
      ∀ (d : Nat) (t : List (List Nat)), 0 < d → cells[d]? = some t →
        ∃ rows, xs[d]? = some rows ∧ rows.length = t.length ∧
          ∀ (c : Nat) (s : List Nat), t[c]? = some s → ∃ vals,
            List.Forall₂ (fun v r => x[v]? = some r) s vals ∧ rows[c]? = some (agg vals) := by
  have hpos : 0 < cells.length := List.length_pos_iff.mpr hne
  have htab : cells = tab cells.length fun d => cells[d]?.getD [] := by
    apply List.ext_getElem?
    intro i
    by_cases hi : i < cells.length
    · rw [tab_get _ hi, List.getElem?_eq_getElem hi]
      rfl
    · rw [tab_get_none _ (by omega), List.getElem?_eq_none (by omega)]
  have hok := constructFeatures_ok (agg := agg) (x := x) (K := fun d => cells[d]?.getD []) hpos
    (by
      intro d hd c hc
      rw [List.getElem?_eq_getElem hd] at hc
      exact h _ (List.getElem_mem hd) c hc)
  rw [← htab] at hok
  refine ⟨_, hok, by simp [tab], by rw [tab_get _ hpos]; rfl, ?_⟩
  intro d t hd ht
  refine ⟨_, tab_get _ (lt_of_get ht), ?_⟩
  unfold liftedRows combineRows
  rw [if_neg (by omega)]
  simp only [ht, Option.getD_some, List.length_map, List.getElem?_map, true_and]
  intro c s hs
  refine ⟨_, forall₂_filterMap (h t (List.mem_of_getElem? ht) s (List.mem_of_getElem? hs)), ?_⟩
  rw [hs]
  rfl

example := C29_features_combine_the_vertices List.sum [1, 2, 3, 4]
  [[[0], [1], [2], [3]], [[0, 1], [1, 2]], [[0, 1, 3]]] (by simp) (by decide)

/-- **C29** A cell with a vertex that has no features is an error. -/
theorem C29_missing_vertex_is_an_error (agg : List F → F) (x : List F) (cells : List (List (List Nat)))
    (xs : List (List F)) (h : constructFeatures agg x cells = .ok xs) (d : Nat) (t : List (List Nat))
    (hd : 0 < d) (ht : cells[d]? = some t) : ∀ c ∈ t, ∀ v ∈ c, v < x.length := by
  unfold constructFeatures at h
  obtain ⟨rest, hr, -⟩ := bind_eq_ok.mp h
  have hmem : t ∈ cells.drop 1 := by
    obtain ⟨e, rfl⟩ : ∃ e, d = e + 1 := ⟨d - 1, by omega⟩
    refine List.mem_of_getElem? (i := e) ?_
    rw [List.getElem?_drop, Nat.add_comm]
    exact ht
  obtain ⟨rows, hrows⟩ : ∃ rows, cellFeatures agg x t = .ok rows := by
    clear h
    revert hmem
    generalize cells.drop 1 = l at hr
    intro hmem
    induction l generalizing rest with
    | nil => simp at hmem
    | cons a l ih =>
      have hf := mapE_eq_ok_iff.mp hr
      cases hf with
      | cons h1 h2 =>
        rcases List.mem_cons.mp hmem with rfl | hm
        · exact ⟨_, h1⟩
        · exact ih _ (mapE_eq_ok_iff.mpr h2) hm
  unfold cellFeatures at hrows
  obtain ⟨sel, hs, -⟩ := bind_eq_ok.mp hrows
  intro c hc v hv
  have hf := indexSelect_eq_ok_iff.mp hs
  have hvf : v ∈ t.flatten := List.mem_flatten.mpr ⟨c, hc, hv⟩
  clear hs hrows
  generalize t.flatten = l at hf hvf
  induction l generalizing sel with
  | nil => simp at hvf
  | cons a l ih =>
    cases sel with
    | nil => simp at hf
    | cons b sel =>
      rw [List.map_cons, List.map_cons] at hf
      injection hf with h1 h2
      rcases List.mem_cons.mp hvf with rfl | hm
      · exact lt_of_get h1
      · exact ih sel h2 hm

/-- Vertex 4 has no features. -/
example : constructFeatures List.sum [1, 2, 3, 4] [[[0], [1], [2], [3]], [[0, 1], [1, 4]]] = .error .index := by decide

/-- **C29** The features of a clique complex are these, with the cells of its tables. -/
theorem C29_clique_complex_features (g : Gudhi) (hg : g.Ok) (agg : List F → F) (x : List F)
    (edges : List (Nat × Nat)) (size k : Nat) (y : Option (List L)) (down : Bool)
    (he : EdgesIn edges size) (h0 : 0 < size) (hx : x.length = size)
    (hy : ∀ l, y = some l → l.length = 1 ∨ l.length = size) :
    ∃ t comp, buildTables (g.expanded (insertions edges size) k) size = .ok t ∧
      cliqueComplex g agg (some x) edges size k y down = .ok comp ∧
      comp.attr 0 Cochain.x = some x ∧
      ∀ d, 0 < d → d ≤ comp.dimension → ∃ rows, comp.attr d Cochain.x = some rows ∧
        rows.length = (t.level d).length ∧
        ∀ (c : Nat) (s : List Nat), (t.level d)[c]? = some s → ∃ vals,
            List.Forall₂ (fun v r => x[v]? = some r) s vals ∧ rows[c]? = some (agg vals) := by
  have H := holds_expanded hg he k
  obtain ⟨h1, h2⟩ := liftTree_ok (agg := agg) (down := down) H h0 hx hy
  have cd := cellData_simplices H h0
  have hl := complexOf_lifts (vy := vertexLabels y) (down := down) cd h2 (complexLabel y)
  refine ⟨_, _, buildTables_ok H h0, h1, ?_, ?_⟩
  · rw [complexOf_attr, if_pos cd.pos]
    rfl
  · intro d hd hle
    have hdd : d < (g.expanded (insertions edges size) k).dims := by
      have := hl.size
      omega
    rw [complexOf_attr, if_pos hdd]
    unfold Tables.level
    rw [tab_get _ hdd]
    refine ⟨_, rfl, h2.rows d _ hdd rfl, ?_⟩
    intro c s hs
    simp only [Option.getD_some] at hs
    refine ⟨_, forall₂_filterMap (x := x) (s := s) ?_, ?_⟩
    · intro v hv
      rw [hx]
      exact ((mem_expanded hg he).mp ((mem_cellsOf H).mp (List.mem_of_getElem? hs)).1).1.2.1 v hv
    · unfold liftedRows combineRows
      rw [if_neg (by omega), List.getElem?_map, hs]
      rfl

example : constructFeatures List.sum [1, 2, 3, 4] [[[0], [1], [2], [3]], [[0, 1], [1, 2]], [[0, 1, 3]]] =
    .ok [[1, 2, 3, 4], [3, 5], [7]] := by decide

/-! ### C30 -/

/-- **C30** One label is the label of the complex, also for a graph with one node; otherwise there must
be one label per node, and they are the labels of the vertices; anything else is rejected. -/
theorem C30_labels_are_separated (y : Option (List L)) (size : Nat) :
    (∀ vy cy, extractLabels y size = .ok (vy, cy) ↔
      (y = none ∧ vy = none ∧ cy = none) ∨
      (∃ l, y = some l ∧ l.length = 1 ∧ vy = none ∧ cy = some l) ∨
      (∃ l, y = some l ∧ l.length ≠ 1 ∧ l.length = size ∧ vy = some l ∧ cy = none)) ∧
    (extractLabels y size = .error .assertion ↔ ∃ l, y = some l ∧ l.length ≠ 1 ∧ l.length ≠ size) := by
  cases y with
  | none =>
    constructor
    · intro vy cy
      simp only [extractLabels, ok_inj, Prod.mk.injEq, true_and, reduceCtorEq, false_and, exists_false,
        or_false]
      constructor <;> rintro ⟨rfl, rfl⟩ <;> exact ⟨rfl, rfl⟩
    · simp [extractLabels]
  | some l =>
    by_cases h1 : l.length = 1
    · constructor
      · intro vy cy
        simp only [extractLabels, if_pos h1, ok_inj, Prod.mk.injEq]
        constructor
        · rintro ⟨rfl, rfl⟩
          exact .inr (.inl ⟨l, rfl, h1, rfl, rfl⟩)
        · rintro (⟨h, -⟩ | ⟨l', e, -, rfl, rfl⟩ | ⟨l', e, h, -⟩)
          · exact absurd h (by simp)
          · cases e; exact ⟨rfl, rfl⟩
          · cases e; exact absurd h1 h
      · simp [extractLabels, h1]
    · by_cases h2 : l.length = size
      · have hE : extractLabels (some l) size = .ok (some l, none) := by
          simp [extractLabels, h1, h2, pyAssert, ok_bind, pure_eq_ok]
          intro h; exact absurd (h2.trans h) h1
        constructor
        · intro vy cy
          rw [hE]
          simp only [ok_inj, Prod.mk.injEq]
          constructor
          · rintro ⟨rfl, rfl⟩
            exact .inr (.inr ⟨l, rfl, h1, h2, rfl, rfl⟩)
          · rintro (⟨h, -⟩ | ⟨l', e, h, -⟩ | ⟨l', e, -, -, rfl, rfl⟩)
            · exact absurd h (by simp)
            · cases e; exact absurd h h1
            · cases e; exact ⟨rfl, rfl⟩
        · rw [hE]
          simp [h2]
      · have hE : extractLabels (some l) size = .error .assertion := by
          simp [extractLabels, h1, h2, pyAssert, error_bind]
        constructor
        · intro vy cy
          rw [hE]
          simp [h1, h2]
        · rw [hE]
          simp [h1, h2]

example : extractLabels (some [5]) 3 = .ok (none, some [5]) ∧ extractLabels (none : Option (List Nat)) 3 = .ok (none, none) ∧
    extractLabels (some [5, 6, 7]) 3 = .ok (some [5, 6, 7], none) ∧
    extractLabels (some [5, 6]) 3 = .error .assertion := by decide

/-- **C30** In a lifted complex the labels of the vertices are on dimension 0, no other dimension has
labels, and a single label is the label of the complex. -/
theorem C30_labels_of_the_lifted_complex (agg : List F → F) (x : List F) (st : SimplexTree)
    (size : Nat) (y : Option (List L)) (down : Bool) (h : st.Holds size) (h0 : 0 < size)
    (hx : x.length = size) :
    ((∃ comp, liftTree agg x st size y down = .ok comp) ↔
      ∀ l, y = some l → l.length = 1 ∨ l.length = size) ∧
    ∀ comp, liftTree agg x st size y down = .ok comp →
      (∀ d, comp.attr (d + 1) Cochain.y = none) ∧
      (y = none → comp.attr 0 Cochain.y = none ∧ comp.y = none) ∧
      (∀ l, y = some l → l.length = 1 → comp.attr 0 Cochain.y = none ∧ comp.y = some l) ∧
      (∀ l, y = some l → l.length ≠ 1 → comp.attr 0 Cochain.y = some l ∧ comp.y = none) := by
  have hiff : (∃ comp, liftTree agg x st size y down = .ok comp) ↔
      ∀ l, y = some l → l.length = 1 ∨ l.length = size := by
    constructor
    · rintro ⟨comp, hc⟩ l rfl
      unfold liftTree at hc
      obtain ⟨t, -, hc⟩ := bind_eq_ok.mp hc
      obtain ⟨inc, -, hc⟩ := bind_eq_ok.mp hc
      obtain ⟨adj, -, hc⟩ := bind_eq_ok.mp hc
      obtain ⟨xs, -, hc⟩ := bind_eq_ok.mp hc
      obtain ⟨⟨vy, cy⟩, hy, -⟩ := bind_eq_ok.mp hc
      rcases ((C30_labels_are_separated (some l) size).1 vy cy).mp hy with ⟨h, -⟩ | ⟨l', e, h, -⟩ |
        ⟨l', e, -, h, -⟩
      · exact absurd h (by simp)
      · cases e; exact .inl h
      · cases e; exact .inr h
    · intro hy
      exact ⟨_, (liftTree_ok h h0 hx hy).1⟩
  refine ⟨hiff, fun comp hc => ?_⟩
  have hy := hiff.mp ⟨comp, hc⟩
  have hpos := (cellData_simplices h h0).pos
  have h1 := (liftTree_ok (agg := agg) (down := down) h h0 hx hy).1
  rw [hc] at h1
  cases h1
  refine ⟨fun d => ?_, ?_, ?_, ?_⟩
  · rw [complexOf_attr]
    split <;> rfl
  · rintro rfl
    rw [complexOf_attr, if_pos hpos]
    exact ⟨rfl, rfl⟩
  · rintro l rfl hl
    rw [complexOf_attr, if_pos hpos]
    simp [cochainOf, vertexLabels, complexLabel, complexOf, hl]
  · rintro l rfl hl
    rw [complexOf_attr, if_pos hpos]
    simp [cochainOf, vertexLabels, complexLabel, complexOf, hl]

example : extractLabels (some [5]) 1 = .ok (none, some [5]) ∧
    extractLabels (some [5, 6, 7]) 3 = .ok (some [5, 6, 7], none) ∧
    extractLabels (some [5, 6]) 3 = .error .assertion := by decide

example : ∃ comp, liftTree List.sum [1, 2, 3, 4, 5] Fixtures.kiteTree 5 (some [9, 8, 7, 6, 5]) true = .ok comp ∧
    comp.cochains.map Cochain.y = [some [9, 8, 7, 6, 5], none, none] ∧ comp.y = none := by
  refine ⟨_, rfl, ?_⟩ <;> decide

/-! ### C34 -/

/-- A graph with features and labels. -/
structure FGraph (R L : Type) where
  size : Nat
  x : List R
  edges : List (Nat × Nat)
  y : Option (List L)

/-- A graph as the datasets give them: at least one node, one row per node, edges between nodes, a label
of the graph or one per node. -/
structure FGraph.Ok (G : FGraph R L) : Prop where
  pos : 0 < G.size
  rows : G.x.length = G.size
  edges : EdgesIn G.edges G.size
  labels : ∀ l, G.y = some l → l.length = 1 ∨ l.length = G.size

/-- The graphs are isomorphic, with the features carried along. -/
def FGraph.Iso (G H : FGraph R L) : Prop :=
  H.size = G.size ∧ ∃ π, GraphIso G.edges H.edges G.size G.x H.x π

/-- The clique complex of a graph. -/
def FGraph.lift (g : Gudhi) (agg : List R → R) (k : Nat) (down : Bool) (G : FGraph R L) : Py (Complex R L) :=
  cliqueComplex g agg (some G.x) G.edges G.size k G.y down

variable {𝕜 : Type} [Field 𝕜] [AddCommGroup R] [Module 𝕜 R]

/-- **C34** Two batches of pairwise isomorphic graphs, lifted to clique complexes, get the same
predictions from SparseCIN, CIN++ and CIN, whatever the numbering of the nodes, the order of the edges and
the order in which the simplex tree lists its simplices. -/
theorem C34_isomorphic_graphs_same_prediction (g g' : Gudhi) (hg : g.Ok) (hg' : g'.Ok) (agg : List R → R)
    (hagg : ∀ l l' : List R, l.Perm l' → agg l = agg l') (k : Nat) (down : Bool)
    (sparse : SparseNet R (SparseLevel 𝕜 R)) (hs : sparse.Fits)
    (pp : SparseNet R (PPLevel 𝕜 R)) (hp : pp.Fits) (cin : CINNet R (CINLevel 𝕜 R)) (hc : cin.Fits)
    (Gs Hs : List (FGraph R L)) (hne : Gs ≠ []) (hG : ∀ G ∈ Gs, G.Ok) (hH : ∀ H ∈ Hs, H.Ok)
    (hiso : List.Forall₂ FGraph.Iso Gs Hs) (mB : Nat) :
    ∃ cs cs', mapE (FGraph.lift g agg k down) Gs = .ok cs ∧ mapE (FGraph.lift g' agg k down) Hs = .ok cs' ∧
      (∃ preds, (fromComplexList cs mB >>= sparse.forward 𝕜 SparseLevel.forward) = .ok preds ∧
        (fromComplexList cs' mB >>= sparse.forward 𝕜 SparseLevel.forward) = .ok preds) ∧
      (∃ preds, (fromComplexList cs mB >>= pp.forward 𝕜 PPLevel.forward) = .ok preds ∧
        (fromComplexList cs' mB >>= pp.forward 𝕜 PPLevel.forward) = .ok preds) ∧
      (∃ preds, (fromComplexList cs mB >>= cin.forward 𝕜 CINLevel.forward) = .ok preds ∧
        (fromComplexList cs' mB >>= cin.forward 𝕜 CINLevel.forward) = .ok preds) := by
  obtain ⟨cs, cs', h1, h2, h3, h4, h5, h6, h7⟩ : ∃ cs cs' : List (Complex R L),
      mapE (FGraph.lift g agg k down) Gs = .ok cs ∧ mapE (FGraph.lift g' agg k down) Hs = .ok cs' ∧
      RenumberedBatch cs cs' ∧ (∀ c ∈ cs, c.Ready) ∧ (∀ c ∈ cs', c.Ready) ∧
      (∀ c ∈ cs, 0 < c.cellsIn 0) ∧ cs.length = Gs.length := by
    clear hne
    induction hiso with
    | nil => exact ⟨[], [], rfl, rfl, .nil, by simp, by simp, by simp, rfl⟩
    | @cons G H Gs Hs hi _ ih =>
      obtain ⟨cs, cs', h1, h2, h3, h4, h5, h6, h7⟩ := ih (fun G' h' => hG G' (by simp [h']))
        (fun H' h' => hH H' (by simp [h']))
      have oG := hG G (by simp)
      have oH := hH H (by simp)
      obtain ⟨hsz, π, hπ⟩ := hi
      obtain ⟨c, c', e1, e2, r1, r2, pos, hφ⟩ := clique_relabels (L := L) hg hg' hagg hπ oG.edges
        (hsz ▸ oH.edges) oG.pos oG.rows (oH.rows.trans hsz) k oG.labels (hsz ▸ oH.labels) down
      refine ⟨c :: cs, c' :: cs', ?_, ?_, .cons hφ h3, ?_, ?_, ?_, by simp [h7]⟩
      · rw [mapE_eq_ok_iff] at h1 ⊢
        exact .cons e1 h1
      · rw [mapE_eq_ok_iff] at h2 ⊢
        refine .cons ?_ h2
        unfold FGraph.lift
        rw [hsz]
        exact e2
      · intro a ha
        rcases List.mem_cons.mp ha with rfl | ha
        · exact r1
        · exact h4 a ha
      · intro a ha
        rcases List.mem_cons.mp ha with rfl | ha
        · exact r2
        · exact h5 a ha
      · intro a ha
        rcases List.mem_cons.mp ha with rfl | ha
        · exact pos
        · exact h6 a ha
  have hne' : cs ≠ [] := by
    rintro rfl
    exact hne (List.length_eq_zero_iff.mp h7.symm)
  exact ⟨cs, cs', h1, h2, C17_predictions_do_not_depend_on_numbering sparse hs pp hp cin hc cs cs' hne' h3
    h4 h5 h6 mB⟩

namespace Fixtures

/-- The kite with features. -/
def kiteG : FGraph ℚ Nat := ⟨5, [1, 2, 3, 4, 5], kite, some [1]⟩

/-- The kite with nodes 0 and 3 exchanged. -/
def kiteH : FGraph ℚ Nat := ⟨5, [4, 2, 3, 1, 5], [(2, 0), (3, 2), (1, 2), (1, 3)], some [1]⟩

theorem kiteG_ok : kiteG.Ok := ⟨by decide, rfl, kite_in, fun l h => by cases h; exact .inl rfl⟩

theorem kiteH_ok : kiteH.Ok :=
  ⟨by decide, rfl, by unfold EdgesIn kiteH; decide, fun l h => by cases h; exact .inl rfl⟩

theorem kite_iso : kiteG.Iso kiteH := by
  refine ⟨rfl, fun v => if v = 0 then 3 else if v = 3 then 0 else v, ?_, ?_, ?_, ?_⟩
  · decide
  · have h : ∀ u < 5, ∀ v < 5, ((if u = 0 then 3 else if u = 3 then 0 else u) =
        if v = 0 then 3 else if v = 3 then 0 else v) → u = v := by decide
    exact fun u v hu hv => h u hu v hv
  · have h : ∀ u < 5, ∀ v < 5, (Joined [(2, 0), (3, 2), (1, 2), (1, 3)]
        (if u = 0 then 3 else if u = 3 then 0 else u) (if v = 0 then 3 else if v = 3 then 0 else v) ↔
        Joined kite u v) := by
      unfold kite; decide
    exact fun u v hu hv => h u hu v hv
  · decide

end Fixtures

/-! ### The theorems on concrete cases -/

section Cases
open Fixtures

example := C34_isomorphic_graphs_same_prediction plainGudhi plainGudhi plainGudhi_ok plainGudhi_ok List.sum
  (fun _ _ h => h.sum_eq) 2 true sparseNetQ sparseNetQ_fits ppNetQ ppNetQ_fits cinNetQ cinNetQ_fits [kiteG] [kiteH]
  (by simp) (by simpa using kiteG_ok) (by simpa using kiteH_ok) (.cons kite_iso .nil) 2

end Cases

end Verif
