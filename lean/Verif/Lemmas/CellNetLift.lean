import Verif.Lemmas.CellNet
import Verif.Lemmas.RingIso
import Verif.Lemmas.EmbedBatch
import Verif.Lemmas.CountRings

/-!
# Lifted complexes show the cells of their graphs
-/

namespace Verif

variable {R L : Type} [AddCommMonoid R]

/-- The cells a batch of dimension at most `mB` keeps, as vertex sets in the order of their ids. -/
def keptCells (K : Nat → List (List Nat)) (dims mB : Nat) (d : Nat) : List (Finset Nat) :=
  if d < dims ∧ d ≤ mB then (K d).map List.toFinset else []

theorem keptCells_get {K : Nat → List (List Nat)} {dims mB d a : Nat} {s : Finset Nat} :
    (keptCells K dims mB d)[a]? = some s ↔ d < dims ∧ d ≤ mB ∧ ∃ c, (K d)[a]? = some c ∧ s = c.toFinset := by
  unfold keptCells
  split
  · next h =>
    rw [List.getElem?_map]
    cases hc : (K d)[a]? with
    | none => simp
    | some c => simp [h, eq_comm]
  · next h =>
    simp only [List.getElem?_nil, reduceCtorEq, false_iff]
    rintro ⟨h1, h2, -⟩
    exact h ⟨h1, h2⟩

theorem LiftsTo.shows {comp : Complex R L} {K : Nat → List (List Nat)} {dims : Nat}
    {face : List Nat → List Nat → Prop} {down : Bool} (lf : LiftsTo comp K dims face down)
    (hlen : comp.cochains.length = dims)
    (hinj : ∀ d, d < dims → ((K d).map List.toFinset).Nodup)
    (hface : ∀ d s t, d + 1 < dims → s ∈ K d → t ∈ K (d + 1) → (face s t ↔ s.toFinset ⊆ t.toFinset))
    {w : View R} (hup : w.up = comp.view.up) (hdown : w.down = comp.view.down) (hbnd : w.bnd = comp.view.bnd)
    {h : Nat → Finset Nat → R} (hX : ∀ d, d < dims → w.X d = (K d).map fun c => h d c.toFinset)
    (hX' : ∀ d, dims ≤ d → w.X d = []) (mB : Nat) :
    Shows (w.upTo mB) down (keptCells K dims mB) h where
  nodup d := by
    unfold keptCells
    split
    · next hd => exact hinj d hd.1
    · exact List.nodup_nil
  X d := by
    simp only [View.upTo, keptCells]
    by_cases h1 : d ≤ mB
    · by_cases h2 : d < dims
      · rw [if_pos h1, if_pos ⟨h2, h1⟩, hX d h2, List.map_map]
        rfl
      · rw [if_pos h1, if_neg (fun e => h2 e.1), hX' d (by omega)]
        rfl
    · rw [if_neg h1, if_neg (fun e => h1 e.2)]
      rfl
  upNodup d := by
    simp only [View.upTo, hup, Complex.view]
    split
    · split
      · exact lf.upNodup d
      · exact List.nodup_nil
    · exact List.nodup_nil
  up d a b c := by
    simp only [View.upTo, hup, Complex.view]
    constructor
    · intro hm
      split at hm
      · next h1 =>
        split at hm
        · obtain ⟨h2, hne, s, t, u, e1, e2, e3, f1, f2⟩ := (lf.up d a b c).mp hm
          have m1 := List.mem_of_getElem? e1
          have m2 := List.mem_of_getElem? e2
          have m3 := List.mem_of_getElem? e3
          exact ⟨hne, _, _, _, keptCells_get.mpr ⟨by omega, by omega, s, e1, rfl⟩,
            keptCells_get.mpr ⟨by omega, by omega, t, e2, rfl⟩,
            keptCells_get.mpr ⟨by omega, by omega, u, e3, rfl⟩,
            (hface d s u h2 m1 m3).mp f1, (hface d t u h2 m2 m3).mp f2⟩
        · simp at hm
      · simp at hm
    · rintro ⟨hne, s', t', u', q1, q2, q3, f1, f2⟩
      obtain ⟨-, -, s, e1, rfl⟩ := keptCells_get.mp q1
      obtain ⟨-, -, t, e2, rfl⟩ := keptCells_get.mp q2
      obtain ⟨h2, h1, u, e3, rfl⟩ := keptCells_get.mp q3
      have m1 := List.mem_of_getElem? e1
      have m2 := List.mem_of_getElem? e2
      have m3 := List.mem_of_getElem? e3
      rw [if_pos h1, if_pos (by rw [List.getElem?_eq_getElem (by omega)]; rfl)]
      exact (lf.up d a b c).mpr ⟨h2, hne, s, t, u, e1, e2, e3, (hface d s u h2 m1 m3).mpr f1,
        (hface d t u h2 m2 m3).mpr f2⟩
  down0 := by simp [View.upTo, hdown, Complex.view]
  downNodup d := by
    simp only [View.upTo, hdown, Complex.view]
    split
    · cases d with
      | zero => exact List.nodup_nil
      | succ d => exact lf.downNodup (d + 1)
    · exact List.nodup_nil
  down d a b c := by
    simp only [View.upTo, hdown, Complex.view]
    constructor
    · intro hm
      split at hm
      · next h1 =>
        obtain ⟨hd, h2, hne, s, t, u, e1, e2, e3, f1, f2⟩ := (lf.down d a b c).mp hm
        have m1 := List.mem_of_getElem? e1
        have m2 := List.mem_of_getElem? e2
        have m3 := List.mem_of_getElem? e3
        exact ⟨hd, hne, _, _, _, keptCells_get.mpr ⟨by omega, by omega, s, e1, rfl⟩,
          keptCells_get.mpr ⟨by omega, by omega, t, e2, rfl⟩,
          keptCells_get.mpr ⟨by omega, by omega, u, e3, rfl⟩,
          (hface d u s h2 m3 m1).mp f1, (hface d u t h2 m3 m2).mp f2⟩
      · simp at hm
    · rintro ⟨hd, hne, s', t', u', q1, q2, q3, f1, f2⟩
      obtain ⟨h2, h1, s, e1, rfl⟩ := keptCells_get.mp q1
      obtain ⟨-, -, t, e2, rfl⟩ := keptCells_get.mp q2
      obtain ⟨-, -, u, e3, rfl⟩ := keptCells_get.mp q3
      have m1 := List.mem_of_getElem? e1
      have m2 := List.mem_of_getElem? e2
      have m3 := List.mem_of_getElem? e3
      rw [if_pos h1]
      exact (lf.down d a b c).mpr ⟨hd, h2, hne, s, t, u, e1, e2, e3, (hface d u s h2 m3 m1).mpr f1,
        (hface d u t h2 m3 m2).mpr f2⟩
  bnd0 := by simp [View.upTo, hbnd, Complex.view]
  bndNodup d := by
    simp only [View.upTo, hbnd, Complex.view]
    split
    · cases d with
      | zero => exact List.nodup_nil
      | succ d => exact lf.bndNodup (d + 1)
    · exact List.nodup_nil
  bnd d a c := by
    simp only [View.upTo, hbnd, Complex.view]
    constructor
    · intro hm
      split at hm
      · next h1 =>
        obtain ⟨h2, s, t, e1, e2, f1⟩ := (lf.bnd d a c).mp hm
        exact ⟨_, _, keptCells_get.mpr ⟨by omega, by omega, s, e1, rfl⟩,
          keptCells_get.mpr ⟨by omega, by omega, t, e2, rfl⟩,
          (hface d s t h2 (List.mem_of_getElem? e1) (List.mem_of_getElem? e2)).mp f1⟩
      · simp at hm
    · rintro ⟨s', t', q1, q2, f1⟩
      obtain ⟨-, -, s, e1, rfl⟩ := keptCells_get.mp q1
      obtain ⟨h2, h1, t, e2, rfl⟩ := keptCells_get.mp q2
      rw [if_pos h1]
      exact (lf.bnd d a c).mpr ⟨h2, s, t, e1, e2,
        (hface d s t h2 (List.mem_of_getElem? e1) (List.mem_of_getElem? e2)).mpr f1⟩

theorem setsOf_kept {K : Nat → List (List Nat)} {dims mB : Nat} {S : Cells}
    (h1 : ∀ d, d < dims → ∀ s, s ∈ S d ↔ ∃ c ∈ K d, s = c.toFinset) (h2 : ∀ d, dims ≤ d → S d = ∅) :
    setsOf (keptCells K dims mB) = S.upTo mB := by
  funext d
  unfold setsOf keptCells Cells.upTo
  by_cases hm : d ≤ mB
  · by_cases hd : d < dims
    · rw [if_pos ⟨hd, hm⟩, if_pos hm]
      ext s
      rw [h1 d hd, List.mem_toFinset, List.mem_map]
      simp only [eq_comm]
    · rw [if_neg (fun e => hd e.1), if_pos hm, h2 d (by omega)]
      rfl
  · rw [if_neg (fun e => hm e.2), if_neg hm]
    rfl

/-! ### Features -/

theorem combine_eq {agg : List R → R} (hagg : ∀ l l' : List R, l.Perm l' → agg l = agg l') {x : List R}
    {c : List Nat} (hn : c.Nodup) (hc : ∀ v ∈ c, v < x.length) :
    agg (c.filterMap fun v => x[v]?) = combineSet agg x c.toFinset := by
  unfold combineSet
  apply hagg
  have e : (c.filterMap fun v => x[v]?) = c.map (rowOf x) := by
    clear hn
    induction c with
    | nil => rfl
    | cons v c ih =>
      have hv := hc v (by simp)
      rw [List.filterMap_cons, List.getElem?_eq_getElem hv, List.map_cons,
        ih fun u hu => hc u (by simp [hu])]
      simp [rowOf, List.getElem?_eq_getElem hv]
  rw [e]
  refine List.Perm.map _ ?_
  rw [List.perm_ext_iff_of_nodup hn (Finset.sort_nodup _ _)]
  simp

/-! ### Clique complexes -/

theorem simplex_toFinset_inj {s t : List Nat} (hs : IsSimplex s) (ht : IsSimplex t)
    (h : s.toFinset = t.toFinset) : s = t := by
  have hp : s.Perm t := by
    rw [List.perm_ext_iff_of_nodup (hs.2.imp fun h => Nat.ne_of_lt h) (ht.2.imp fun h => Nat.ne_of_lt h)]
    intro v
    rw [← List.mem_toFinset, ← List.mem_toFinset, h]
  exact hp.eq_of_pairwise (fun a b _ _ h1 h2 => by omega) hs.2 ht.2

theorem cells_simplex {st : SimplexTree} {size d : Nat} (h : st.Holds size) {s : List Nat}
    (hs : s ∈ st.cellsOf size d) : IsSimplex s := h.simplex s ((mem_cellsOf h).mp hs).1

theorem toFinset_subset_iff {s t : List Nat} : s.toFinset ⊆ t.toFinset ↔ s ⊆ t := by
  simp [Finset.subset_iff, List.subset_def]

theorem nodup_simplices {st : SimplexTree} {size : Nat} (h : st.Holds size) (d : Nat) :
    ((st.cellsOf size d).map List.toFinset).Nodup :=
  (nodup_cellsOf h d).map_on fun _ hs _ ht e =>
    simplex_toFinset_inj (cells_simplex h hs) (cells_simplex h ht) e

theorem vertex_rows {x : List R} {h : Nat → Finset Nat → R} (hh : ∀ v, h 0 {v} = rowOf x v) :
    x = ((List.range x.length).map fun v => [v]).map fun c => h 0 c.toFinset := by
  rw [List.map_map]
  refine List.ext_getElem? fun v => ?_
  rw [List.getElem?_map]
  by_cases hv : v < x.length
  · rw [List.getElem?_range hv, List.getElem?_eq_getElem hv]
    simp [hh, rowOf, List.getElem?_eq_getElem hv]
  · rw [List.getElem?_eq_none (by omega), List.getElem?_eq_none (by simpa using hv)]
    rfl

theorem simplex_faces {st : SimplexTree} {size : Nat} (h : st.Holds size) {d : Nat} {s t : List Nat}
    (hs : s ∈ st.cellsOf size d) (ht : t ∈ st.cellsOf size (d + 1)) :
    IsFacet s t ↔ s.toFinset ⊆ t.toFinset := by
  obtain ⟨a1, a2⟩ := (mem_cellsOf h).mp hs
  obtain ⟨b1, b2⟩ := (mem_cellsOf h).mp ht
  rw [isFacet_iff_subset (h.simplex s a1).2 (h.simplex t b1).2, toFinset_subset_iff]
  exact ⟨fun h => h.1, fun h => ⟨h, by omega⟩⟩

theorem sort_simplex (s : Finset Nat) (h : s.Nonempty) : IsSimplex (s.sort (· ≤ ·)) := by
  refine ⟨?_, ?_⟩
  · intro e
    have := congrArg List.length e
    rw [Finset.length_sort, List.length_nil] at this
    exact absurd (Finset.card_pos.mpr h) (by omega)
  · exact (Finset.sortedLT_sort s).pairwise

theorem mem_cliqueSets {g : Gudhi} (hg : g.Ok) {edges : List (Nat × Nat)} {size k : Nat}
    (he : EdgesIn edges size) (d : Nat) (s : Finset Nat) :
    s ∈ cliqueSets edges size k d ↔
      ∃ c ∈ (g.expanded (insertions edges size) k).cellsOf size d, s = c.toFinset := by
  have H := holds_expanded hg he k
  unfold cliqueSets
  constructor
  · intro hm
    split at hm
    · next hd =>
      obtain ⟨h1, h2⟩ := Finset.mem_filter.mp hm
      obtain ⟨h3, h4⟩ := Finset.mem_powersetCard.mp h1
      have hne : s.Nonempty := Finset.card_pos.mp (by omega)
      refine ⟨s.sort (· ≤ ·), (mem_cellsOf H).mpr ⟨(mem_expanded hg he).mpr ⟨⟨sort_simplex s hne, ?_, ?_⟩, ?_⟩, ?_⟩, by simp⟩
      · intro v hv
        exact Finset.mem_range.mp (h3 ((Finset.mem_sort _).mp hv))
      · intro u hu v hv
        exact h2 u ((Finset.mem_sort _).mp hu) v ((Finset.mem_sort _).mp hv)
      · rw [Finset.length_sort]; omega
      · rw [Finset.length_sort, h4]
    · simp at hm
  · rintro ⟨c, hc, rfl⟩
    obtain ⟨h1, h2⟩ := (mem_cellsOf H).mp hc
    obtain ⟨⟨h3, h4, h5⟩, h6⟩ := (mem_expanded hg he).mp h1
    rw [if_pos (by omega)]
    refine Finset.mem_filter.mpr ⟨Finset.mem_powersetCard.mpr ⟨?_, ?_⟩, ?_⟩
    · intro v hv
      exact Finset.mem_range.mpr (h4 v (List.mem_toFinset.mp hv))
    · rw [List.toFinset_card_of_nodup (simplex_nodup h3), h2]
    · intro u hu v hv
      exact h5 u (List.mem_toFinset.mp hu) v (List.mem_toFinset.mp hv)

theorem clique_shows {g : Gudhi} (hg : g.Ok) {agg : List R → R}
    (hagg : ∀ l l' : List R, l.Perm l' → agg l = agg l') {edges : List (Nat × Nat)} {size : Nat}
    {x : List R} (he : EdgesIn edges size) (h0 : 0 < size) (hx : x.length = size)
    (k : Nat) {y : Option (List L)} (hy : ∀ l, y = some l → l.length = 1 ∨ l.length = size) (down : Bool)
    (mB : Nat) :
    ∃ comp : Complex R L, cliqueComplex g agg (some x) edges size k y down = .ok comp ∧
      comp.Ready ∧ 0 < comp.cellsIn 0 ∧ ∃ cells, Shows (comp.view.upTo mB) down cells (cliqueFeatures agg x) ∧
        setsOf cells = (cliqueSets edges size k).upTo mB := by
  have H := holds_expanded hg he k
  obtain ⟨h1, h2⟩ := liftTree_ok (agg := agg) (down := down) H h0 hx hy
  have cd := cellData_simplices H h0
  have lf := complexOf_lifts (vy := vertexLabels y) (down := down) cd h2 (complexLabel y)
  obtain ⟨comp', -, e1, -, r1, -, pos, -⟩ := clique_relabels (L := L) hg hg hagg (π := id) (x := x) (x' := x)
    (edges := edges) (edges' := edges) ⟨fun v h => h, fun u v _ _ h => h, fun u v _ _ => Iff.rfl, fun v _ => rfl⟩
    he he h0 hx hx k hy hy down
  have e2 := e1
  unfold cliqueComplex at e2
  have hcomp : comp' = _ := Except.ok.inj (e2.symm.trans h1)
  refine ⟨comp', e1, r1, pos, ?_⟩
  subst hcomp
  refine ⟨_, lf.shows (by simp [complexOf]) (fun d _ => nodup_simplices H d)
    (fun d s t _ hs ht => simplex_faces H hs ht) rfl rfl rfl ?_ ?_ mB, setsOf_kept (fun d _ => mem_cliqueSets hg he d) ?_⟩
  · intro d hd
    show ((complexOf _ _ _ _ _ _ _ _ _).attr d Cochain.x).getD [] = _
    rw [complexOf_attr, if_pos hd]
    simp only [cochainOf, Option.getD_some, liftedRows]
    split
    · next h =>
      subst h
      have := vertex_rows (x := x) (h := cliqueFeatures agg x) (by simp [cliqueFeatures])
      rw [hx] at this
      exact this
    · next h =>
      obtain ⟨d, rfl⟩ : ∃ d', d = d' + 1 := ⟨d - 1, by omega⟩
      unfold combineRows
      refine List.map_congr_left fun c hc => ?_
      have hs := cells_simplex H hc
      rw [combine_eq hagg (simplex_nodup hs)]
      · rfl
      · intro v hv
        rw [hx]
        exact ((mem_expanded hg he).mp ((mem_cellsOf H).mp hc).1).1.2.1 v hv
  · intro d hd
    show ((complexOf _ _ _ _ _ _ _ _ _).attr d Cochain.x).getD [] = _
    rw [complexOf_attr, if_neg (by omega)]
    rfl
  · intro d hd
    apply Finset.eq_empty_of_forall_notMem
    intro s hs
    obtain ⟨c, hc, -⟩ := (mem_cliqueSets hg he d s).mp hs
    obtain ⟨h3, h4⟩ := (mem_cellsOf H).mp hc
    have := length_le_dims h3
    omega

/-! ### Ring complexes -/

theorem Shows.reduceAt {v : View R} {down : Bool} {cells : Nat → List (Finset Nat)} {h : Nat → Finset Nat → R}
    (hv : Shows v down cells h) {reduce : List R → R}
    (hred : ∀ l l' : List R, l.Perm l' → reduce l = reduce l') {d c : Nat} {s : Finset Nat}
    (hs : (cells d)[c]? = some s) {k : Finset Nat → R} {rows : List R} (hrows : rows = (cells (d - 1)).map k) :
    Verif.reduceAt reduce rows (v.bnd d) c = reduce (((setsOf cells).facesOf d s).toList.map k) := by
  unfold Verif.reduceAt
  apply hred
  obtain ⟨h1, h2⟩ := hv.faces hs
  have h3 := h1.map k
  rw [List.map_map] at h3
  refine .trans (.of_eq (List.map_congr_left fun p hp => ?_)) h3
  obtain ⟨t, ht, -⟩ := h2 p hp
  rw [hrows, rowOf_mapped ht]
  simp [ht]

theorem edge_toFinset {u v : Nat} (e : Nat × Nat) (huv : u < v) (h : ([u, v] : List Nat).toFinset = {e.1, e.2}) :
    canon e = [u, v] := by
  obtain ⟨a, b⟩ := e
  have h1 : u ∈ ({a, b} : Finset Nat) := by rw [← h]; simp
  have h2 : v ∈ ({a, b} : Finset Nat) := by rw [← h]; simp
  have h3 : a ∈ ([u, v] : List Nat).toFinset := by rw [h]; simp
  simp only [Finset.mem_insert, Finset.mem_singleton, List.mem_toFinset, List.mem_cons, List.not_mem_nil,
    or_false] at h1 h2 h3
  have : (a, b) = (u, v) ∨ (a, b) = (u, v).swap := by
    simp only [Prod.swap, Prod.mk.injEq]
    omega
  rw [(canon_eq_iff (a, b) (u, v)).mpr this]
  simp [canon, sortedNat, List.insertionSort, List.orderedInsert, Nat.le_of_lt huv]

section
variable [DecidableEq R] {g : Gudhi} {lib : RingLib} {agg : List R → R} {maxK : Nat}
  {down initEdges initRings : Bool}

theorem mem_ringSets (hg : g.Ok) (hl : lib.Ok) {edges : List (Nat × Nat)} {size : Nat}
    (he : EdgesIn edges size) (h0 : 0 < size) (d : Nat) (s : Finset Nat) :
    s ∈ ringSets edges size maxK d ↔ d < ringDims (g.inserted (insertions edges size)) (getRings lib edges maxK) ∧
      ∃ c ∈ ringCells (g.inserted (insertions edges size)) size (getRings lib edges maxK) d, s = c.toFinset := by
  have rd := ringData_of hg hl he h0 maxK
  have hge := ringDims_ge rd
  have hjoin : ∀ u v, Joined edges u v → u < size ∧ v < size := by
    rintro u v ⟨-, h | h⟩
    · exact he _ h
    · exact (he _ h).symm
  match d with
  | 0 =>
    show s ∈ (Finset.range size).image _ ↔ _
    rw [Finset.mem_image]
    simp only [Finset.mem_range, ringCells, SimplexTree.cellsOf, if_neg (show ¬ 0 = 2 by omega), if_true]
    constructor
    · rintro ⟨v, hv, rfl⟩
      exact ⟨rd.dims_pos, [v], List.mem_map.mpr ⟨v, by simpa using hv, rfl⟩, by simp⟩
    · rintro ⟨-, c, hc, rfl⟩
      obtain ⟨v, hv, rfl⟩ := List.mem_map.mp hc
      exact ⟨v, by simpa using hv, by simp⟩
  | 1 =>
    simp only [ringSets, Finset.mem_filter, Finset.mem_powerset, ringCells, if_neg (show ¬ 1 = 2 by omega)]
    constructor
    · rintro ⟨-, u, v, hj, rfl⟩
      have h2 : (g.inserted (insertions edges size)).dims = 2 := (dims_inserted_two hg he h0).mpr ⟨u, v, hj⟩
      refine ⟨by omega, ?_⟩
      rcases Nat.lt_or_gt_of_ne hj.1 with h | h
      · exact ⟨[u, v], (rd.edge _).mpr ⟨u, v, h, rfl, hj⟩, by simp⟩
      · exact ⟨[v, u], (rd.edge _).mpr ⟨v, u, h, rfl, hj.1.symm, hj.2.symm⟩, by simp [Finset.pair_comm]⟩
    · rintro ⟨-, c, hc, rfl⟩
      obtain ⟨u, v, h, rfl, hj⟩ := (rd.edge c).mp hc
      obtain ⟨a, b⟩ := hjoin u v hj
      refine ⟨?_, u, v, hj, by simp⟩
      intro w hw
      simp only [List.mem_toFinset, List.mem_cons, List.not_mem_nil, or_false] at hw
      rcases hw with rfl | rfl
      · exact Finset.mem_range.mpr a
      · exact Finset.mem_range.mpr b
  | 2 =>
    simp only [ringSets, Finset.mem_filter, Finset.mem_powerset, ringCells, if_true]
    constructor
    · rintro ⟨-, r, hr, hle, rfl⟩
      obtain ⟨r', hm, hp⟩ := (getRings_spec lib hl.order edges maxK).2.1 r ((mem_reported hl).mpr ⟨hr, hle⟩)
      refine ⟨?_, r', hm, ?_⟩
      · unfold ringDims
        rw [if_neg (by rintro e; rw [e] at hm; simp at hm)]
        omega
      · ext v
        rw [List.mem_toFinset, List.mem_toFinset, hp.mem_iff]
    · rintro ⟨-, r, hr, rfl⟩
      obtain ⟨h1, h2⟩ := getRings_ring hl hr
      refine ⟨?_, r, h1, h2, rfl⟩
      intro v hv
      exact Finset.mem_range.mpr (ring_vertices he h1 (List.mem_toFinset.mp hv))
  | d + 3 =>
    have : ringDims (g.inserted (insertions edges size)) (getRings lib edges maxK) ≤ 3 := rd.dims_le
    constructor
    · intro h
      exact absurd h (by simp [ringSets])
    · rintro ⟨h, -⟩
      omega

theorem ring_nodup_sets (hg : g.Ok) (hl : lib.Ok) {edges : List (Nat × Nat)} {size : Nat}
    (he : EdgesIn edges size) (h0 : 0 < size) (d : Nat) :
    ((ringCells (g.inserted (insertions edges size)) size (getRings lib edges maxK) d).map List.toFinset).Nodup := by
  have rd := ringData_of hg hl he h0 maxK
  unfold ringCells
  split
  · rw [List.nodup_iff_pairwise_ne, List.pairwise_map]
    refine ((getRings_spec lib hl.order edges maxK).2.2).imp_of_mem ?_
    intro a b ha hb hne e
    apply hne
    rw [List.perm_ext_iff_of_nodup (rd.ring a ha).nodup (rd.ring b hb).nodup]
    intro v
    rw [← List.mem_toFinset, ← List.mem_toFinset, e]
  · exact nodup_simplices rd.holds d

theorem ring_cell_vertices (hg : g.Ok) (hl : lib.Ok) {edges : List (Nat × Nat)} {size : Nat}
    (he : EdgesIn edges size) (h0 : 0 < size) {d : Nat} {c : List Nat}
    (hc : c ∈ ringCells (g.inserted (insertions edges size)) size (getRings lib edges maxK) d) :
    c.Nodup ∧ ∀ v ∈ c, v < size := by
  have rd := ringData_of hg hl he h0 maxK
  unfold ringCells at hc
  split at hc
  · have := rd.ring c hc
    exact ⟨this.nodup, fun v hv => ring_vertices he this hv⟩
  · obtain ⟨h1, h2⟩ := (mem_cellsOf rd.holds).mp hc
    obtain ⟨h3, -⟩ := (mem_inserted hg he).mp h1
    exact ⟨simplex_nodup h3.1, h3.2.1⟩

theorem edge_rows {st : SimplexTree} {G : RGraph R L} (hG : G.Ok) (hg : g.Ok)
    (hst : st = g.inserted (insertions G.edges G.size))
    (hagg : ∀ l l' : List R, l.Perm l' → agg l = agg l') {rows : List R}
    (hd : EdgeDesc agg initEdges st G (some rows)) (hlen : rows.length = (st.cellsOf G.size 1).length) :
    rows = (st.cellsOf G.size 1).map fun c => G.features agg 1 c.toFinset := by
  have H : st.Holds G.size := by rw [hst]; exact holds_inserted hg hG.edges
  cases ha : G.attr with
  | none =>
    rw [hd.plain rows rfl ha]
    unfold combineRows
    refine List.map_congr_left fun c hc => ?_
    rw [combine_eq hagg (simplex_nodup (cells_simplex H hc))]
    · simp [RGraph.features, ha]
    · intro v hv
      rw [hG.rows]
      rw [hst] at hc
      exact ((mem_inserted hg hG.edges).mp ((mem_cellsOf (hst ▸ H)).mp hc).1).1.2.1 v hv
  | some a =>
    refine List.ext_getElem? fun c => ?_
    rw [List.getElem?_map]
    cases hc : (st.cellsOf G.size 1)[c]? with
    | none =>
      rw [List.getElem?_eq_none (by rw [hlen]; exact List.getElem?_eq_none_iff.mp hc)]
      rfl
    | some cell =>
      have hm := List.mem_of_getElem? hc
      have hm' : cell ∈ (g.inserted (insertions G.edges G.size)).cellsOf G.size 1 := hst ▸ hm
      obtain ⟨u, v, huv, rfl, hj⟩ := (mem_edgeCells hg hG.edges).mp hm'
      obtain ⟨hal, hagree⟩ := hG.attr a ha
      simp only [Option.map_some, RGraph.features, ha]
      -- a column of this edge
      have hex : ∃ p ∈ G.edges.zip a, ([u, v] : List Nat).toFinset = {p.1.1, p.1.2} := by
        rcases hj.2 with h | h
        · obtain ⟨i, hi⟩ := List.mem_iff_getElem?.mp h
          have hlt := lt_of_get hi
          exact ⟨((u, v), a[i]'(by omega)), List.mem_iff_getElem?.mpr ⟨i, by
            rw [List.getElem?_zip_eq_some]; exact ⟨hi, List.getElem?_eq_getElem _⟩⟩, by simp⟩
        · obtain ⟨i, hi⟩ := List.mem_iff_getElem?.mp h
          have hlt := lt_of_get hi
          exact ⟨((v, u), a[i]'(by omega)), List.mem_iff_getElem?.mpr ⟨i, by
            rw [List.getElem?_zip_eq_some]; exact ⟨hi, List.getElem?_eq_getElem _⟩⟩, by
            simp [Finset.pair_comm]⟩
      cases hf : (G.edges.zip a).find? fun p => decide (([u, v] : List Nat).toFinset = {p.1.1, p.1.2}) with
      | none =>
        obtain ⟨p, hp, he⟩ := hex
        exact absurd he (by simpa using List.find?_eq_none.mp hf p hp)
      | some p =>
        have h1 := List.find?_some hf
        obtain ⟨i, hi⟩ := List.mem_iff_getElem?.mp (List.mem_of_find?_eq_some hf)
        obtain ⟨hi1, hi2⟩ := List.getElem?_zip_eq_some.mp hi
        have hcan := edge_toFinset p.1 huv (by simpa using h1)
        rw [hd.given rows a rfl ha i p.1 c hi1 (by rw [hcan]; exact hc), hi2]
        rfl

theorem embed_rows {comp : Complex R L} {l : EmbedInit R}
    (hred : ∀ a b : List R, a.Perm b → l.reduce a = l.reduce b) {w : View R} {down : Bool}
    {cells : Nat → List (Finset Nat)} {h : Nat → Finset Nat → R} (hv : Shows (w.upTo 2) down cells h)
    (hbnd : w.bnd = comp.view.bnd) (hcount : ∀ d, d ≤ 2 → comp.cellsIn d = (cells d).length)
    (hx0 : comp.attr 0 Cochain.x = some ((cells 0).map (h 0))) {initEdges : Bool}
    (hx1 : ∀ rows, comp.attr 1 Cochain.x = some rows → initEdges = true ∧ rows = (cells 1).map (h 1))
    (hx1' : initEdges = true → comp.attr 1 Cochain.x = none → cells 1 = []) {d : Nat} (hd : d ≤ 2) :
    l.rows comp d = (cells d).map (l.onSets initEdges (setsOf cells) h d) := by
  have hfaces : ∀ d, d + 1 ≤ 2 → comp.faces (d + 1) = (w.upTo 2).bnd (d + 1) := by
    intro d hd
    simp only [View.upTo, if_pos hd, hbnd]
    rfl
  have hred' : ∀ (d : Nat) (k : Finset Nat → R), d + 1 ≤ 2 →
      (List.range (comp.cellsIn (d + 1))).map (reduceAt l.reduce ((cells d).map k) (comp.faces (d + 1))) =
        (cells (d + 1)).map fun s => l.reduce (((setsOf cells).facesOf (d + 1) s).toList.map k) := by
    intro d k hd
    rw [hcount _ hd, hfaces d hd]
    refine List.ext_getElem? fun c => ?_
    rw [List.getElem?_map, List.getElem?_map]
    cases hc : (cells (d + 1))[c]? with
    | none => rw [List.getElem?_eq_none (by simpa using List.getElem?_eq_none_iff.mp hc)]; rfl
    | some s =>
      rw [List.getElem?_range (lt_of_get hc)]
      simp only [Option.map_some]
      exact congrArg some (hv.reduceAt hred hc (k := k) rfl)
  have hvert : l.vertexRows comp = (cells 0).map fun f => l.vEmbed (h 0 f) := by
    unfold EmbedInit.vertexRows
    rw [hx0, Option.getD_some, List.map_map]
    rfl
  have hsums : l.edgeSums comp = (cells 1).map fun s =>
      l.reduce (((setsOf cells).facesOf 1 s).toList.map fun f => l.vEmbed (h 0 f)) := by
    unfold EmbedInit.edgeSums
    rw [hvert]
    exact hred' 0 _ (by omega)
  match d with
  | 0 => exact hvert
  | 1 =>
    simp only [EmbedInit.rows, EmbedInit.onSets]
    cases he : l.eEmbed with
    | none =>
      cases ha : comp.attr 1 Cochain.x <;> exact hsums
    | some f =>
      cases ha : comp.attr 1 Cochain.x with
      | none =>
        simp only
        rw [hsums]
        cases hi : initEdges with
        | false => rfl
        | true => rw [hx1' hi ha]; rfl
      | some rows =>
        obtain ⟨h1, h2⟩ := hx1 rows ha
        simp only [h1, h2, List.map_map, if_true]
        rfl
  | 2 =>
    show ((List.range (comp.cellsIn 2)).map (reduceAt l.reduce (l.edgeSums comp) (comp.faces 2))).map l.half = _
    rw [hsums, hred' 1 _ (by omega), List.map_map]
    rfl

/-- What the lifting of a graph shows, with the features of the graph and after an initial layer. -/
theorem ring_shows (hg : g.Ok) (hl : lib.Ok) (hagg : ∀ l l' : List R, l.Perm l' → agg l = agg l')
    {G : RGraph R L} (hG : G.Ok) (mB : Nat) :
    ∃ comp, G.lift g lib agg maxK down initEdges initRings = .ok comp ∧ RingFacts comp initEdges initRings ∧
      ∃ cells, setsOf cells = (ringSets G.edges G.size maxK).upTo mB ∧
        (initEdges = true → initRings = true → Shows (comp.view.upTo mB) down cells (G.features agg)) ∧
        ∀ l : EmbedInit R, (∀ a b : List R, a.Perm b → l.reduce a = l.reduce b) →
          (initEdges = true → l.eEmbed.isSome) →
          Shows ((l.embed comp).view.upTo mB) down cells
            (l.onSets initEdges (ringSets G.edges G.size maxK) (G.features agg)) := by
  obtain ⟨x1, h1, fit, hd⟩ := RGraph.lift_ok (agg := agg) (maxK := maxK) (down := down)
    (initEdges := initEdges) (initRings := initRings) hg hl hG rfl rfl
  have rd := ringData_of hg hl hG.edges hG.pos maxK
  have cd := rd.cellData
  have lf := complexOf_lifts (vy := vertexLabels G.y) (down := down) cd fit (complexLabel G.y)
  have facts := ring_facts (vy := vertexLabels G.y) (y := complexLabel G.y) (down := down) rd fit hd.some
  have hsets : ∀ m, setsOf (keptCells (ringCells (g.inserted (insertions G.edges G.size)) G.size
      (getRings lib G.edges maxK)) (ringDims (g.inserted (insertions G.edges G.size))
      (getRings lib G.edges maxK)) m) = (ringSets G.edges G.size maxK).upTo m := by
    intro m
    refine setsOf_kept (fun d hdd s => ?_) (fun d hdd => ?_)
    · rw [mem_ringSets hg hl hG.edges hG.pos]
      exact ⟨fun h => h.2, fun h => ⟨hdd, h⟩⟩
    · apply Finset.eq_empty_of_forall_notMem
      intro s hs
      have := ((mem_ringSets (maxK := maxK) hg hl hG.edges hG.pos d s).mp hs).1
      omega
  have shows : ∀ {w : View R} {h : Nat → Finset Nat → R} (m : Nat), w.up = _ → w.down = _ → w.bnd = _ → _ → _ →
      Shows (w.upTo m) down _ h := fun {w h} m a b c d e =>
    lf.shows (w := w) (h := h) (by simp [complexOf]) (fun d _ => ring_nodup_sets hg hl hG.edges hG.pos d)
      (fun _ _ _ _ _ _ => toFinset_subset_iff.symm) a b c d e m
  have hx1 : ∀ rows, x1 = some rows → 1 < ringDims (g.inserted (insertions G.edges G.size))
      (getRings lib G.edges maxK) → rows = ((g.inserted (insertions G.edges G.size)).cellsOf G.size 1).map
        fun c => G.features agg 1 c.toFinset := by
    intro rows hr hlt
    subst hr
    exact edge_rows hG hg rfl hagg hd (fit.rows 1 rows hlt rfl)
  have hv0 : G.x = (ringCells (g.inserted (insertions G.edges G.size)) G.size (getRings lib G.edges maxK) 0).map
      fun c => G.features agg 0 c.toFinset := by
    have := vertex_rows (x := G.x) (h := G.features agg) (by simp [RGraph.features])
    rw [hG.rows] at this
    exact this
  refine ⟨_, h1, facts, _, hsets mB, ?_, ?_⟩
  · intro he hr
    refine shows mB rfl rfl rfl ?_ ?_
    · intro d hdd
      show ((complexOf _ _ _ _ _ _ _ _ _).attr d Cochain.x).getD [] = _
      rw [complexOf_attr, if_pos hdd]
      have := rd.dims_le
      have h012 : d = 0 ∨ d = 1 ∨ d = 2 := by omega
      rcases h012 with rfl | rfl | rfl
      · exact hv0
      · have h2 : 2 ≤ (g.inserted (insertions G.edges G.size)).dims := by
          unfold ringDims at hdd
          split at hdd
          · exact hdd
          · next h => have := rd.dims_two h; omega
        have hs := hd.some
        rw [he] at hs
        simp only [h2, decide_true, Bool.and_self] at hs
        obtain ⟨rows, hr1⟩ := Option.isSome_iff_exists.mp hs
        have := hx1 rows hr1 hdd
        subst hr1
        exact this
      · subst hr
        show ((tab _ _)[2]?).getD [] = _
        rw [tab_get _ hdd]
        simp only [Option.getD_some, liftedRows, if_neg (show ¬ 2 = 0 by omega), combineRows]
        refine List.map_congr_left fun c hc => ?_
        obtain ⟨c1, c2⟩ := ring_cell_vertices hg hl hG.edges hG.pos hc
        rw [combine_eq hagg c1 (by rw [hG.rows]; exact c2)]
        rfl
    · intro d hdd
      show ((complexOf _ _ _ _ _ _ _ _ _).attr d Cochain.x).getD [] = _
      rw [complexOf_attr, if_neg (by omega)]
      rfl
  · intro l hred hle
    have hbase := shows (w := { (complexOf (ringCells (g.inserted (insertions G.edges G.size)) G.size
      (getRings lib G.edges maxK)) (ringDims (g.inserted (insertions G.edges G.size))
      (getRings lib G.edges maxK)) ringFaces (ringBd (g.inserted (insertions G.edges G.size)))
      (ringCob (g.inserted (insertions G.edges G.size)) (getRings lib G.edges maxK)) down
      (ringXs G.x x1 (ringRows initRings (tab (ringDims (g.inserted (insertions G.edges G.size))
        (getRings lib G.edges maxK)) (liftedRows agg G.x (ringCells (g.inserted (insertions G.edges G.size))
        G.size (getRings lib G.edges maxK))))))
      (vertexLabels G.y) (complexLabel G.y)).view with
        X := fun d => if d < ringDims (g.inserted (insertions G.edges G.size)) (getRings lib G.edges maxK) then
          (ringCells (g.inserted (insertions G.edges G.size)) G.size (getRings lib G.edges maxK) d).map
            (fun c => G.features agg d c.toFinset) else [] })
      (h := G.features agg) 2 rfl rfl rfl (fun d hdd => if_pos hdd) (fun d hdd => if_neg (by omega))
    have htop : (ringSets G.edges G.size maxK).upTo 2 = ringSets G.edges G.size maxK := by
      funext d
      unfold Cells.upTo
      split
      · rfl
      · next h =>
        obtain ⟨d, rfl⟩ : ∃ d', d = d' + 3 := ⟨d - 3, by omega⟩
        rfl
    have hs2 := (hsets 2).trans htop
    have takes : l.Takes (complexOf (ringCells (g.inserted (insertions G.edges G.size)) G.size
      (getRings lib G.edges maxK)) (ringDims (g.inserted (insertions G.edges G.size))
      (getRings lib G.edges maxK)) ringFaces (ringBd (g.inserted (insertions G.edges G.size)))
      (ringCob (g.inserted (insertions G.edges G.size)) (getRings lib G.edges maxK)) down
      (ringXs G.x x1 (ringRows initRings (tab (ringDims (g.inserted (insertions G.edges G.size))
        (getRings lib G.edges maxK)) (liftedRows agg G.x (ringCells (g.inserted (insertions G.edges G.size))
        G.size (getRings lib G.edges maxK))))))
      (vertexLabels G.y) (complexLabel G.y)) := ⟨facts.valid, facts.small, facts.cells, facts.nodes, facts.vertices,
      facts.faces, fun he => by rw [facts.edges, Bool.and_eq_true] at he; exact hle he.1⟩
    refine shows mB ?_ ?_ ?_ ?_ ?_
    · funext d
      simp only [Complex.view, embed_get, embed_attr d (get := Cochain.upperIndex) (fun _ _ => rfl),
        embed_attr d (get := Cochain.sharedCoboundaries) (fun _ _ => rfl), Option.isSome_map]
    · funext d
      cases d with
      | zero => rfl
      | succ d =>
        simp only [Complex.view, embed_attr (d + 1) (get := Cochain.lowerIndex) (fun _ _ => rfl),
          embed_attr (d + 1) (get := Cochain.sharedBoundaries) (fun _ _ => rfl)]
    · funext d
      cases d with
      | zero => rfl
      | succ d =>
        simp only [Complex.view, embed_attr (d + 1) (get := Cochain.boundaryIndex) (fun _ _ => rfl)]
    · intro d hdd
      rw [embed_X takes.embeds]
      have hd2 : d ≤ 2 := by have := rd.dims_le; omega
      have hcell : ∀ d, d < ringDims (g.inserted (insertions G.edges G.size)) (getRings lib G.edges maxK) → d ≤ 2 →
          keptCells (ringCells (g.inserted (insertions G.edges G.size)) G.size (getRings lib G.edges maxK))
            (ringDims (g.inserted (insertions G.edges G.size)) (getRings lib G.edges maxK)) 2 d =
          (ringCells (g.inserted (insertions G.edges G.size)) G.size (getRings lib G.edges maxK) d).map
            List.toFinset := fun d h1 h2 => if_pos ⟨h1, h2⟩
      have := embed_rows (l := l) hred hbase rfl (initEdges := initEdges) ?_ ?_ ?_ ?_ hd2
      · rw [this, hs2, hcell d hdd hd2, List.map_map]
        rfl
      · intro d hd
        rw [complexOf_cellsIn cd fit]
        unfold keptCells
        by_cases h : d < ringDims (g.inserted (insertions G.edges G.size)) (getRings lib G.edges maxK)
        · rw [if_pos h, if_pos ⟨h, hd⟩, List.length_map]
        · rw [if_neg h, if_neg (fun e => h e.1)]
          rfl
      · rw [complexOf_attr, if_pos cd.pos, hcell 0 cd.pos (by omega), List.map_map]
        exact congrArg some hv0
      · intro rows hr
        rw [complexOf_attr] at hr
        split at hr
        · next hlt =>
          have hr : x1 = some rows := hr
          rw [hcell 1 hlt (by omega), List.map_map]
          refine ⟨?_, hx1 rows hr hlt⟩
          have := hd.some
          rw [hr] at this
          by_contra h
          simp [h] at this
        · simp at hr
      · intro hi hn
        rw [complexOf_attr] at hn
        unfold keptCells
        split at hn
        · next hlt =>
          have hn : x1 = none := hn
          have hs := hd.some
          rw [hn, hi] at hs
          have h2 : ¬ 2 ≤ (g.inserted (insertions G.edges G.size)).dims := by simpa using hs
          unfold ringDims at hlt
          split at hlt
          · omega
          · next h => have := rd.dims_two h; omega
        · next hlt => rw [if_neg (fun e => hlt e.1)]
    · intro d hdd
      rw [embed_X takes.embeds]
      apply List.eq_nil_of_length_eq_zero
      rw [EmbedInit.rows_length takes.embeds, complexOf_cellsIn cd fit, if_neg (by omega)]

end

end Verif
