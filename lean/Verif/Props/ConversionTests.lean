import Verif.Model.ConversionTests
import Verif.Spec.ConversionTests
import Verif.Props.Dummies
import Verif.Props.ToGraph
import Verif.Props.Convert
import Verif.Lemmas.Checks

/-! # Longer rings and converting the graphs of complexes (C123) -/

namespace Verif

variable {F L R : Type}

/-! ### Longer rings -/

theorem foldl_nothing {A B : Type} {f : A → B → A} {l : List B} (h : ∀ a, ∀ b ∈ l, f a b = a) (a : A) :
    l.foldl f a = a := by
  induction l generalizing a with
  | nil => rfl
  | cons b l ih =>
    rw [List.foldl_cons, h a b (by simp)]
    exact ih (fun a b hb => h a b (by simp [hb])) a

theorem getRings_longer {lib : RingLib} (hl : lib.Ok) {edges : List (Nat × Nat)} {k k' : Nat} (hk : k ≤ k')
    (h : ∀ r, IsRing edges r → r.length ≤ k' → r.length ≤ k) : getRings lib edges k' = getRings lib edges k := by
  unfold getRings
  have : k' - 2 = (k - 2) + ((k' - 2) - (k - 2)) := by omega
  rw [this, ← List.range'_append, List.foldl_append]
  dsimp only
  rw [foldl_nothing (l := List.range' _ _)]
  intro s m hm
  have hm := List.mem_range'_1.mp hm
  have : lib.isos edges m = [] := by
    rw [List.eq_nil_iff_forall_not_mem]
    intro r hr
    obtain ⟨h1, h2⟩ := (hl.isos edges m r (by omega)).mp hr
    have := h r h2 (by omega)
    omega
  rw [this]
  rfl

/-- **C123** Rings that are not there do not matter: if no induced cycle has more than `k` and at most `k'` vertices, the
ring complex for `k'` is the ring complex for `k`, with all its tensors, numberings and labels, whatever the input; in
particular for all sizes from the number of vertices on. -/
theorem C123_larger_sizes_change_nothing [DecidableEq F] (g : Gudhi) (lib : RingLib) (hl : lib.Ok) (agg : List F → F)
    (x : Option (List F)) (edges : List (Nat × Nat)) (attr : Option (List F)) (size : Nat) (y : Option (List L))
    (k k' : Nat) (hk : k ≤ k') (down initEdges initRings : Bool) :
    ((∀ r, IsRing edges r → r.length ≤ k' → r.length ≤ k) →
      ringComplex g lib agg x edges attr size y k' down initEdges initRings =
        ringComplex g lib agg x edges attr size y k down initEdges initRings) ∧
    (EdgesIn edges size → size ≤ k →
      ringComplex g lib agg x edges attr size y k' down initEdges initRings =
        ringComplex g lib agg x edges attr size y k down initEdges initRings) := by
  have key : (∀ r, IsRing edges r → r.length ≤ k' → r.length ≤ k) →
      ringComplex g lib agg x edges attr size y k' down initEdges initRings =
        ringComplex g lib agg x edges attr size y k down initEdges initRings := by
    intro h
    have e := getRings_longer hl hk h
    unfold ringComplex buildTablesWithRings
    simp only [e]
  refine ⟨key, fun he hs => key fun r hr _ => ?_⟩
  have h1 : r.length ≤ (List.range size).length :=
    (List.subperm_of_subset hr.nodup fun v hv => List.mem_range.mpr (isRing_vertices he hr v hv)).length_le
  rw [List.length_range] at h1
  omega

/-- **C123** And rings that are there do matter: if some induced cycle has more than `k` and at most `k'` vertices, the ring
complex for `k'` has more cells of dimension 2 than the one for `k`. -/
theorem C123_longer_rings_are_added [DecidableEq R] (g : Gudhi) (hg : g.Ok) (lib : RingLib) (hl : lib.Ok)
    (agg : List R → R) (G : RGraph R L) (hG : G.Ok) (k k' : Nat) (down initEdges initRings : Bool) (r : List Nat)
    (hr : IsRing G.edges r) (h1 : k < r.length) (h2 : r.length ≤ k') :
    ∃ c c', G.lift g lib agg k down initEdges initRings = .ok c ∧
      G.lift g lib agg k' down initEdges initRings = .ok c' ∧ c.cellsIn 2 < c'.cellsIn 2 := by
  obtain ⟨t, c, -, e, hc, -⟩ := C32_incidence_of_rings (agg := agg) (maxK := k) (down := down) (initEdges := initEdges)
    (initRings := initRings) (attr := G.attr) (y := G.y) (hg := hg) (hl := hl) (he := hG.edges)
    (hn := hG.loops) (h0 := hG.pos) (hx := hG.rows) (hy := hG.labels) (ha := hG.attr)
  obtain ⟨t', c', -, e', hc', -⟩ := C32_incidence_of_rings (agg := agg) (maxK := k') (down := down)
    (initEdges := initEdges) (initRings := initRings) (attr := G.attr) (y := G.y) (hg := hg) (hl := hl) (he := hG.edges)
    (hn := hG.loops) (h0 := hG.pos) (hx := hG.rows) (hy := hG.labels) (ha := hG.attr)
  refine ⟨c, c', e, e', ?_⟩
  rw [hc, hc']
  have hnd : (sortedNat r :: (getRings lib G.edges k).map sortedNat).Nodup := by
    rw [List.nodup_cons]
    constructor
    · intro hm
      obtain ⟨q, hq, he⟩ := List.mem_map.mp hm
      have := ((sortedNat_eq_iff _ _).mp he).length_eq
      have := (getRings_ring hl hq).2
      omega
    · rw [List.Nodup, List.pairwise_map]
      exact (getRings_spec lib hl.order G.edges k).2.2.imp fun hne hp => hne ((sortedNat_eq_iff _ _).mp hp)
  have hsub : sortedNat r :: (getRings lib G.edges k).map sortedNat ⊆ (getRings lib G.edges k').map sortedNat := by
    have hin : ∀ q, IsRing G.edges q → q.length ≤ k' → sortedNat q ∈ (getRings lib G.edges k').map sortedNat := by
      intro q hq hle
      obtain ⟨q', hq', hp⟩ := getRings_all hl hq hle
      exact List.mem_map.mpr ⟨q', hq', (sortedNat_eq_iff _ _).mpr hp⟩
    intro s hs
    rcases List.mem_cons.mp hs with rfl | hs
    · exact hin r hr h2
    · obtain ⟨q, hq, rfl⟩ := List.mem_map.mp hs
      obtain ⟨a, b⟩ := getRings_ring hl hq
      exact hin q a (by omega)
  have := (List.subperm_of_subset hnd hsub).length_le
  simpa using this

/-! ### Converting the graphs of complexes -/

/-- **C123** The graph of a complex is one that both conversions take: for a cell complex with features whose label is one
number per complex or absent and whose vertices and edges are a graph without loops and parallel edges. -/
theorem C123_graphs_of_complexes (comp : Complex F L) (hr : comp.Ready) (hpos : 0 < comp.cellsIn 0)
    (hg : comp.GraphLike) (hy : ∀ l, comp.y = some l → l.length = 1) :
    ∃ G x, convertToGraph comp = .ok G ∧ G.Ok x ∧ G.Simple ∧ comp.attr 0 Cochain.x = some x ∧
      ∀ a, G.edgeAttr = some a → ∃ rows, comp.attr 1 Cochain.x = some rows ∧ ∀ r ∈ a, r ∈ rows := by
  obtain ⟨G, e, h1, h2, h3, h4, h5, h6⟩ := C56_graph_of_a_complex comp hr.valid hpos
  obtain ⟨c, hc⟩ : ∃ c, comp.cochains[0]? = some c := by
    refine ⟨_, List.getElem?_eq_getElem (l := comp.cochains) (i := 0) ?_⟩
    rw [hr.valid.len]
    omega
  have vc := hr.valid.valid 0 c hc
  obtain ⟨x, hx⟩ := Option.isSome_iff_exists.mp (hr.featured c (List.mem_of_getElem? hc))
  have hx0 : comp.attr 0 Cochain.x = some x := by rw [attr_of hc, hx]
  unfold Complex.GraphLike at hg
  rw [← h3] at hg
  rw [attr_of hc] at h3
  have hs : comp.attr 0 Cochain.sharedCoboundaries = c.sharedCoboundaries := attr_of hc _
  have hu : comp.attr 0 Cochain.upperIndex = c.upperIndex := attr_of hc _
  rw [hs] at hg h5
  rw [hu] at h5 h6
  have hlen := vc.upperShared
  rw [← h3] at hlen
  have hattr : ∀ a, G.edgeAttr = some a → ∃ rows, comp.attr 1 Cochain.x = some rows ∧ a.length = G.edgeIndex.length ∧
      ∀ (i s : Nat), (c.sharedCoboundaries.getD [])[i]? = some s → a[i]? = rows[s]? := by
    intro a ha
    cases hrows : comp.attr 1 Cochain.x with
    | none => rw [h6 (.inl hrows)] at ha; cases ha
    | some rows =>
      by_cases hup : c.upperIndex = none
      · rw [h6 (.inr hup)] at ha; cases ha
      · obtain ⟨a', ea, h⟩ := h5 rows hrows hup
        rw [ha] at ea
        cases ea
        exact ⟨rows, rfl, h⟩
  refine ⟨G, x, e, ⟨h1.trans hx0, by omega, by rw [h2]; exact vc.rows x hx, ?_, ?_⟩, ⟨hg.nodup, hg.both, hg.noLoops, ?_, ?_⟩,
    hx0, ?_⟩
  · intro q hq
    rw [h2]
    rw [h3] at hq
    exact vc.upper q hq
  · intro l hl
    rw [h4] at hl
    exact .inl (hy l hl)
  · intro l hl
    rw [h4] at hl
    exact hy l hl
  · intro a ha
    obtain ⟨rows, -, hl, hrow⟩ := hattr a ha
    refine ⟨hl, fun i j e e' hi hj h => ?_⟩
    rcases h with rfl | rfl
    · rw [(List.getElem?_inj (List.getElem?_eq_some_iff.mp hi).1 hg.nodup).mp (hi.trans hj.symm)]
    · have hsh := hg.shared j i e' hj hi
      have hji : j < (c.sharedCoboundaries.getD []).length := by
        rw [hlen]
        exact (List.getElem?_eq_some_iff.mp hj).1
      have hsj := List.getElem?_eq_getElem hji
      rw [hrow j _ hsj, hrow i _ (hsh ▸ hsj)]
  · intro a ha
    obtain ⟨rows, hrows, hl, hrow⟩ := hattr a ha
    refine ⟨rows, hrows, fun r hr' => ?_⟩
    obtain ⟨i, hi⟩ := List.mem_iff_getElem?.mp hr'
    have hii : i < (c.sharedCoboundaries.getD []).length := by
      rw [hlen, ← hl]
      exact (List.getElem?_eq_some_iff.mp hi).1
    rw [hrow i _ (List.getElem?_eq_getElem hii)] at hi
    exact List.mem_of_getElem? hi

/-- **C123** Hence the graphs of any such complexes, if all features of vertices and edges have the same width, are converted
by both conversions, to as many complexes, and the widths found are that one. -/
theorem C123_conversions_complete [DecidableEq F] [DecidableEq L] (g : Gudhi) (hg : g.Ok) (lib : RingLib) (hl : lib.Ok)
    (agg : List F → F) (width : F → Nat) (w : Nat)
    (hagg : ∀ l : List F, l ≠ [] → (∀ r ∈ l, width r = w) → width (agg l) = w) (cs : List (Complex F L))
    (hcs : ∀ c ∈ cs, c.Ready ∧ 0 < c.cellsIn 0 ∧ c.GraphLike ∧ (∀ l, c.y = some l → l.length = 1) ∧
      ∀ d ≤ 1, ∀ rows, c.attr d Cochain.x = some rows → ∀ r ∈ rows, width r = w) :
    ∃ Gs, mapE convertToGraph cs = .ok Gs ∧
      (∀ k down, 1 ≤ k → ∃ r, convertWithGudhi g agg width Gs k down = .ok r ∧ r.complexes.length = cs.length ∧
        ∀ (d : Nat) (n : Option Nat), r.numFeatures[d]? = some n → n = some w) ∧
      ∀ maxK down initRings, ∃ r, convertWithRings g lib agg width Gs maxK down true initRings = .ok r ∧
        r.complexes.length = cs.length ∧
        ∀ (d : Nat) (n : Option Nat), r.numFeatures[d]? = some n → n = some (if d < 2 ∨ initRings then w else 0) := by
  obtain ⟨Gs, h1, h2⟩ := mapE_forall₂ (f := convertToGraph)
    (P := fun (_ : Complex F L) (G : GraphData F L) => ∃ x, G.Ok x ∧ G.Simple ∧ (∀ r ∈ x, width r = w) ∧
      ((G.edgeAttr = none ∧ w = w) ∨ ∃ a, G.edgeAttr = some a ∧ ∀ r ∈ a, width r = w)) (l := cs) (fun c hc => by
    obtain ⟨a1, a2, a3, a4, a5⟩ := hcs c hc
    obtain ⟨G, x, e, b1, b2, b3, b4⟩ := C123_graphs_of_complexes c a1 a2 a3 a4
    refine ⟨G, e, x, b1, b2, a5 0 (by omega) x b3, ?_⟩
    cases ha : G.edgeAttr with
    | none => exact .inl ⟨rfl, rfl⟩
    | some a =>
      obtain ⟨rows, c1, c2⟩ := b4 a ha
      exact .inr ⟨a, rfl, fun r hr => a5 1 (by omega) rows c1 r (c2 r hr)⟩)
  have hGs : ∀ G ∈ Gs, ∃ x, G.Ok x ∧ G.Simple ∧ (∀ r ∈ x, width r = w) ∧
      ((G.edgeAttr = none ∧ w = w) ∨ ∃ a, G.edgeAttr = some a ∧ ∀ r ∈ a, width r = w) := by
    intro G hG
    obtain ⟨c, -, h⟩ := forall₂_source h2 hG
    exact h
  have hlen : Gs.length = cs.length := h2.length_eq.symm
  refine ⟨Gs, h1, fun k down hk => ?_, fun maxK down initRings => ?_⟩
  · obtain ⟨r, e1, e2, e3⟩ := C35_clique_datasets_convert g hg agg width w hagg Gs k hk down fun G hG => by
      obtain ⟨x, a1, -, a3, -⟩ := hGs G hG
      exact ⟨x, a1, a3⟩
    exact ⟨r, e1, e2.trans hlen, e3⟩
  · obtain ⟨r, e1, e2, e3⟩ := C35_ring_datasets_convert g hg lib hl agg width w w hagg maxK down initRings Gs hGs
    refine ⟨r, e1, e2.trans hlen, fun d n hd => ?_⟩
    rw [e3 d n hd]
    congr 1
    match d with
    | 0 => simp
    | 1 => simp
    | d + 2 => simp

/-! ### The tests -/

/-- A check of `PlainColumns`. -/
def plainColumnsB (up : List (Nat × Nat)) (shared : List Nat) : Bool :=
  decide up.Nodup && up.all (fun e => decide (e.swap ∈ up) && decide (e.1 ≠ e.2)) &&
    (List.range up.length).all fun i => (List.range up.length).all fun j =>
      decide (up[j]? = (up[i]?).map Prod.swap → shared[i]? = shared[j]?)

theorem plainColumnsB_sound {up : List (Nat × Nat)} {shared : List Nat} (h : plainColumnsB up shared = true) :
    PlainColumns up shared := by
  unfold plainColumnsB at h
  simp only [Bool.and_eq_true, decide_eq_true_eq, List.all_eq_true, List.mem_range] at h
  obtain ⟨⟨h1, h2⟩, h3⟩ := h
  refine ⟨h1, fun e he => (h2 e he).1, fun e he => (h2 e he).2, fun i j e hi hj => ?_⟩
  refine h3 i (List.getElem?_eq_some_iff.mp hi).1 j (List.getElem?_eq_some_iff.mp hj).1 ?_
  rw [hi, hj]
  rfl

/-- A hand-made complex is built and its vertices and edges are a graph. -/
def BuiltLike (c : Py (Complex F Int)) : Prop :=
  ∃ comp, c = .ok comp ∧ comp.GraphLike

section
variable (num : Nat → F)

theorem house_like : BuiltLike (houseComplex num) := ⟨_, rfl, plainColumnsB_sound rfl⟩
theorem bridged_like : BuiltLike (bridgedComplex num) := ⟨_, rfl, plainColumnsB_sound rfl⟩
theorem fullstop_like : BuiltLike (fullstopComplex num) := ⟨_, rfl, plainColumnsB_sound rfl⟩
theorem colon_like : BuiltLike (colonComplex num) := ⟨_, rfl, plainColumnsB_sound rfl⟩
theorem square_like : BuiltLike (squareComplex num) := ⟨_, rfl, plainColumnsB_sound rfl⟩
theorem squareDot_like : BuiltLike (squareDotComplex num) := ⟨_, rfl, plainColumnsB_sound rfl⟩
theorem kite_like : BuiltLike (kiteComplex num) := ⟨_, rfl, plainColumnsB_sound rfl⟩
theorem pyramid_like : BuiltLike (pyramidComplex num) := ⟨_, rfl, plainColumnsB_sound rfl⟩
theorem filledSquare_like : BuiltLike (filledSquareComplex num) := ⟨_, rfl, plainColumnsB_sound rfl⟩
theorem molecular_like : BuiltLike (molecularComplex num) := ⟨_, rfl, plainColumnsB_sound rfl⟩

theorem testing_like {cs : List (Complex F Int)} (h : testingComplexes num = .ok cs) : ∀ c ∈ cs, c.GraphLike := by
  obtain ⟨ho, e1, h1⟩ := house_like num
  obtain ⟨br, e2, h2⟩ := bridged_like num
  obtain ⟨fs, e3, h3⟩ := fullstop_like num
  obtain ⟨co, e4, h4⟩ := colon_like num
  obtain ⟨sq, e5, h5⟩ := square_like num
  obtain ⟨sd, e6, h6⟩ := squareDot_like num
  obtain ⟨ki, e7, h7⟩ := kite_like num
  obtain ⟨py, e8, h8⟩ := pyramid_like num
  obtain ⟨fi, e9, h9⟩ := filledSquare_like num
  obtain ⟨mo, e10, h10⟩ := molecular_like num
  unfold testingComplexes at h
  simp only [mapE_cons, mapE_nil, e1, e2, e3, e4, e5, e6, e7, e8, e9, e10, ok_bind, ok_inj] at h
  subst h
  intro c hc
  simp only [List.mem_cons, List.not_mem_nil, or_false] at hc
  have : c = ho ∨ c = br ∨ c = fs ∨ c = co ∨ c = sq ∨ c = sd ∨ c = ki ∨ c = py ∨ c = fi ∨ c = mo := by
    clear * - hc; tauto
  rcases this with rfl | rfl | rfl | rfl | rfl | rfl | rfl | rfl | rfl | rfl <;> assumption

end

/-- **C123** The two tests that convert the graphs of the hand-made complexes pass, with any features of equal width. -/
theorem C123_conversion_tests_pass [DecidableEq F] (g : Gudhi) (hg : g.Ok) (lib : RingLib) (hl : lib.Ok)
    (agg : List F → F) (width : F → Nat) (w : Nat)
    (hagg : ∀ l : List F, l ≠ [] → (∀ r ∈ l, width r = w) → width (agg l) = w) (num : Nat → F)
    (hnum : ∀ n, width (num n) = w) :
    simpConversionTest g agg width num = .ok () ∧ cellConversionTest g lib agg width num = .ok () ∧
      ∃ Gs, testingGraphs num = .ok Gs ∧ Gs.length = 23 := by
  obtain ⟨cs, h1, h2, h3, -⟩ := testing_built num
  have hlike := testing_like num h1
  obtain ⟨Gs, e, hk, hr⟩ := C123_conversions_complete g hg lib hl agg width w hagg cs (by
    intro c hc
    obtain ⟨hm, -⟩ := h3 c hc
    refine ⟨hm.sound.ready, hm.sound.full 0 (by omega), hlike c hc, ?_, ?_⟩
    · intro l hl
      rw [hm.label] at hl
      cases hl
      rfl
    · intro d _ rows hrows r hr
      have hd : d ≤ c.dimension := by
        by_contra hcon
        have : c.cochains[d]? = none := by
          rw [List.getElem?_eq_none_iff, hm.sound.ready.valid.len]
          omega
        unfold Complex.attr at hrows
        rw [this] at hrows
        cases hrows
      rw [hm.rows d hd] at hrows
      cases hrows
      obtain ⟨i, -, rfl⟩ := List.mem_map.mp hr
      exact hnum _)
  have hG : testingGraphs num = .ok Gs := by
    unfold testingGraphs
    rw [h1, ok_bind, e]
  obtain ⟨r, er, -⟩ := hk 3 true (by omega)
  obtain ⟨q, eq, -⟩ := hr 7 false true
  refine ⟨?_, ?_, Gs, hG, ?_⟩
  · unfold simpConversionTest
    rw [hG, ok_bind, er]
    rfl
  · unfold cellConversionTest
    rw [hG, ok_bind, eq]
    rfl
  · rw [← h2]
    exact (mapE_eq_ok_iff.mp e).length_eq.symm

/-! ### Examples -/

section Examples
open Fixtures

/-- The shed has five vertices, a triangle and a square: from 5 on nothing changes, and 4 adds to 3. -/
example (k' : Nat) (h : 5 ≤ k') : shedG.lift plainGudhi plainRings List.sum k' true true true =
    shedG.lift plainGudhi plainRings List.sum 5 true true true :=
  (C123_larger_sizes_change_nothing plainGudhi plainRings plainRings_ok List.sum (some shedG.x) shedG.edges
    shedG.attr shedG.size shedG.y 5 k' h true true true).2 shedG_ok.edges (by decide)

example := C123_longer_rings_are_added plainGudhi plainGudhi_ok plainRings plainRings_ok List.sum shedG shedG_ok 3 4 true
  true true [2, 3, 0, 1] (ringCheck_iff.mp (by decide)) (by decide) (by decide)

/-- The tests, for features that are one number. -/
example := C123_conversion_tests_pass plainGudhi plainGudhi_ok plainRings plainRings_ok (List.sum (α := ℚ)) (fun _ => 1) 1
  (fun _ _ _ => rfl) (fun n => (n : ℚ)) fun _ => rfl

end Examples

end Verif
