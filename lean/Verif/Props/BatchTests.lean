import Verif.Lemmas.BatchTests
import Verif.Props.Lifting
import Verif.Props.Dummies
import Verif.Lemmas.Checks

/-!
# The tests of batching pass: C115
-/

namespace Verif

variable {R L : Type} [DecidableEq R] [AddCommMonoid R]

/-- What the two loops of a test keep of dimension `d`: from the batches and from the complexes alone. -/
def KeptBy (getB getS : Nat → MPParams R → Py (Option (List R))) (b m : Nat) (cs : List (Complex R L)) (d : Nat)
    (rows : Option (List R)) : Prop :=
  ∃ batches bps sps, mapE (fun part => fromComplexList part m) (chunks b cs) = .ok batches ∧
    mapE (boundedParams m) batches = .ok bps ∧ mapE (fun comp => comp.getAllCochainParams) cs = .ok sps ∧
    keptDim (getB d) bps d = .ok rows ∧ keptDim (getS d) sps d = .ok rows

omit [DecidableEq R] [AddCommMonoid R] in
theorem attr_above {A : Type} {comp : Complex R L} (h : comp.Ready) {d : Nat} (hd : comp.dimension < d) (get : Cochain R L → Option A) :
    comp.attr d get = none := attr_none (absent_of_gt h.valid hd) get

/-- **C115** The test of the features passes on every list of complexes with features, for every batch size and every dimension
at which the batches are cut; up to dimension 2 it compares all rows, in the order of the complexes, and beyond it nothing. -/
theorem C115_features_test {b : Nat} (hb : 0 < b) (m : Nat) (cs : List (Complex R L)) (hr : ∀ c ∈ cs, c.Ready) :
    featuresTest b m cs = .ok () ∧
    ∀ d ≤ m, KeptBy (fun _ => getFeatures) (fun _ => getFeatures) b m cs d
      (gathered (cs.map fun c => if d ≤ 2 then c.attr d Cochain.x else none)) := by
  obtain ⟨h1, bs, bps, sps, h2, h3, h4, h5⟩ := sameTest_kept (getB := fun _ => getFeatures) (getS := fun _ => getFeatures)
    (k := fun d c => c.attr d Cochain.x) (m := m) hb hr (fun c hc d hd => attr_above (hr c hc) hd _) (by
      intro c hc d _ p hp hv
      have : d < c.cochains.length := by
        by_contra hn
        unfold Complex.getCochainParams at hp
        rw [List.getElem?_eq_none (by omega)] at hp
        cases hp
      have hc' := List.getElem?_eq_getElem this
      rw [attr_of hc', ((hr c hc).runs.X_eq hc').1]
      unfold getFeatures
      rw [hv.x]) (by
      intro part hne hsub B hB d _ hdB p hp hv
      have hrp : ∀ c ∈ part, c.Ready := fun c hc => hr c (hsub c hc)
      rw [← batch_features hB hrp hdB]
      have : d < B.cochains.length := by rw [(batch_runs hB hrp).len]; omega
      have hc' := List.getElem?_eq_getElem this
      rw [attr_of hc', ((batch_runs hB hrp).X_eq hc').1]
      unfold getFeatures
      rw [hv.x])
  exact ⟨h1, fun d hd => ⟨bs, bps, sps, h2, h3, h4, h5 d hd⟩⟩

/-- **C115** The test of the features of shared cofaces passes as well, unless some complex stores an upper index without a
single pair; they are compared up to dimension 2 and below the dimension at which the batches are cut. -/
theorem C115_up_attr_test {b : Nat} (hb : 0 < b) (m : Nat) (cs : List (Complex R L)) (hr : ∀ c ∈ cs, c.Ready)
    (he : ∀ c ∈ cs, c.NoEmptyUpper) :
    upAttrTest b m cs = .ok () ∧
    ∀ d ≤ m, KeptBy (fun _ p => .ok p.upAttr) (fun d p => .ok (if d < m then p.upAttr else none)) b m cs d
      (gathered (cs.map fun c => if d ≤ 2 then if d < m then c.sharedAbove d else none else none)) := by
  obtain ⟨h1, bs, bps, sps, h2, h3, h4, h5⟩ := sameTest_kept (getB := fun _ p => .ok p.upAttr)
    (getS := fun d p => .ok (if d < m then p.upAttr else none))
    (k := fun d c => if d < m then c.sharedAbove d else none) (m := m) hb hr (by
      intro c hc d hd
      unfold Complex.sharedAbove
      rw [absent_of_gt (hr c hc).valid (by omega : c.dimension < d + 1)]
      simp) (by
      intro c hc d _ p hp hv
      rw [(hr c hc).runs.upAttr hp hv]) (by
      intro part hne hsub B hB d hd hdB p hp hv
      have hrp : ∀ c ∈ part, c.Ready := fun c hc => hr c (hsub c hc)
      rw [(batch_runs hB hrp).upAttr hp hv, batch_sharedAbove hB hrp (fun c hc => he c (hsub c hc)) hd hdB])
  exact ⟨h1, fun d hd => ⟨bs, bps, sps, h2, h3, h4, h5 d hd⟩⟩

/-- **C115** The test of the features of shared faces passes. -/
theorem C115_down_attr_test {b : Nat} (hb : 0 < b) (m : Nat) (cs : List (Complex R L)) (hr : ∀ c ∈ cs, c.Ready) :
    downAttrTest b m cs = .ok () ∧
    ∀ d ≤ m, KeptBy (fun _ p => .ok p.downAttr) (fun _ p => .ok p.downAttr) b m cs d
      (gathered (cs.map fun c => if d ≤ 2 then c.sharedBelow d else none)) := by
  obtain ⟨h1, bs, bps, sps, h2, h3, h4, h5⟩ := sameTest_kept (getB := fun _ p => .ok p.downAttr)
    (getS := fun _ p => .ok p.downAttr) (k := fun d c => c.sharedBelow d) (m := m) hb hr (by
      intro c hc d hd
      unfold Complex.sharedBelow
      rw [attr_above (hr c hc) hd]
      rfl) (by
      intro c hc d _ p hp hv
      rw [(hr c hc).runs.downAttr hp hv]) (by
      intro part hne hsub B hB d hd hdB p hp hv
      have hrp : ∀ c ∈ part, c.Ready := fun c hc => hr c (hsub c hc)
      rw [(batch_runs hB hrp).downAttr hp hv, batch_sharedBelow hB hrp hd hdB])
  exact ⟨h1, fun d hd => ⟨bs, bps, sps, h2, h3, h4, h5 d hd⟩⟩

/-- **C115** The test of the boundary index passes: the features of the faces and those of the cells they are faces of. -/
theorem C115_boundary_index_test {b : Nat} (hb : 0 < b) (m : Nat) (cs : List (Complex R L)) (hr : ∀ c ∈ cs, c.Ready) :
    boundaryIndexTest b m cs = .ok () ∧
    ∀ d ≤ m, KeptBy (fun _ => getIncident (·.boundaryAttr) Prod.fst) (fun _ => getIncident (·.boundaryAttr) Prod.fst) b m cs d
        (gathered (cs.map fun c => if d ≤ 2 then c.facesOf d else none)) ∧
      KeptBy (fun _ => getIncident (·.x) Prod.snd) (fun _ => getIncident (·.x) Prod.snd) b m cs d
        (gathered (cs.map fun c => if d ≤ 2 then c.cellsOf d else none)) := by
  obtain ⟨h1, bs, bps, sps, h2, h3, h4, h5⟩ := sameTest_kept (getB := fun _ => getIncident (·.boundaryAttr) Prod.fst)
    (getS := fun _ => getIncident (·.boundaryAttr) Prod.fst) (k := fun d c => c.facesOf d) (m := m) hb hr (by
      intro c hc d hd
      unfold Complex.facesOf
      rw [attr_above (hr c hc) hd]
      simp) (by
      intro c hc d _ p hp hv
      exact ((hr c hc).runs.bndAttr hp hv).1) (by
      intro part hne hsub B hB d hd hdB p hp hv
      have hrp : ∀ c ∈ part, c.Ready := fun c hc => hr c (hsub c hc)
      rw [((batch_runs hB hrp).bndAttr hp hv).1, (batch_facesOf hB hrp hd hdB).1])
  obtain ⟨g1, bs', bps', sps', g2, g3, g4, g5⟩ := sameTest_kept (getB := fun _ => getIncident (·.x) Prod.snd)
    (getS := fun _ => getIncident (·.x) Prod.snd) (k := fun d c => c.cellsOf d) (m := m) hb hr (by
      intro c hc d hd
      unfold Complex.cellsOf
      rw [attr_above (hr c hc) hd]
      simp) (by
      intro c hc d _ p hp hv
      exact ((hr c hc).runs.bndAttr hp hv).2) (by
      intro part hne hsub B hB d hd hdB p hp hv
      have hrp : ∀ c ∈ part, c.Ready := fun c hc => hr c (hsub c hc)
      rw [((batch_runs hB hrp).bndAttr hp hv).2, (batch_facesOf hB hrp hd hdB).2])
  refine ⟨?_, fun d hd => ⟨⟨bs, bps, sps, h2, h3, h4, h5 d hd⟩, bs', bps', sps', g2, g3, g4, g5 d hd⟩⟩
  unfold boundaryIndexTest
  rw [h1, ok_bind, g1]

omit [AddCommMonoid R] in
/-- **C115** What a test of this kind says when it passes: from the batches and from the complexes alone it kept the same rows
in every dimension up to that at which the batches are cut, and no batch goes beyond that dimension. -/
theorem C115_what_the_tests_compare (getB getS : Nat → MPParams R → Py (Option (List R))) (b m : Nat) (cs : List (Complex R L)) :
    sameTest getB getS b m cs = .ok () ↔ 0 < b ∧
      ∃ batches bps sps, List.Forall₂ (fun part B => fromComplexList part m = .ok B) (chunks b cs) batches ∧
        List.Forall₂ (fun B ps => B.getAllCochainParams = .ok ps ∧ ps.length ≤ m + 1) batches bps ∧
        List.Forall₂ (fun comp ps => comp.getAllCochainParams = .ok ps) cs sps ∧
        ∀ d ≤ m, ∃ rows, keptDim (getB d) bps d = .ok rows ∧ keptDim (getS d) sps d = .ok rows := by
  have hbp : ∀ (B : Complex R L) (ps : List (MPParams R)), boundedParams m B = .ok ps ↔ B.getAllCochainParams = .ok ps ∧ ps.length ≤ m + 1 := by
    intro B ps
    unfold boundedParams
    constructor
    · intro h
      obtain ⟨qs, h1, h⟩ := bind_eq_ok.mp h
      obtain ⟨u, h2, h⟩ := bind_eq_ok.mp h
      cases h
      exact ⟨h1, by simpa [pyAssert_eq_ok] using h2⟩
    · rintro ⟨h1, h2⟩
      rw [h1, ok_bind, decide_eq_true h2]
      rfl
  unfold sameTest
  by_cases hb : b = 0
  · rw [if_pos hb]
    constructor
    · intro h; cases h
    · rintro ⟨h, -⟩; omega
  rw [if_neg hb]
  constructor
  · intro h
    obtain ⟨bs, h1, h⟩ := bind_eq_ok.mp h
    obtain ⟨bps, h2, h⟩ := bind_eq_ok.mp h
    obtain ⟨ba, h3, h⟩ := bind_eq_ok.mp h
    obtain ⟨sps, h4, h⟩ := bind_eq_ok.mp h
    obtain ⟨si, h5, h⟩ := bind_eq_ok.mp h
    have he : si = ba := by simpa [pyAssert_eq_ok] using h
    subst he
    rw [mapE_eq_ok_iff] at h1 h2 h3 h4 h5
    refine ⟨by omega, bs, bps, sps, h1, ?_, h4, ?_⟩
    · exact h2.imp fun B ps hp => (hbp B ps).mp hp
    · intro d hd
      have hl := h3.length_eq
      rw [List.length_range] at hl
      have e1 := List.Forall₂.get h3 (i := d) (by rw [List.length_range]; omega) (by omega)
      have e2 := List.Forall₂.get h5 (i := d) (by rw [List.length_range]; omega) (by omega)
      simp only [List.get_eq_getElem, List.getElem_range] at e1 e2
      exact ⟨_, e1, e2⟩
  · rintro ⟨-, bs, bps, sps, h1, h2, h4, h5⟩
    choose! rows h6 h7 using h5
    rw [mapE_eq_ok_iff.mpr h1, ok_bind, mapE_eq_ok_iff.mpr (h2.imp fun B ps hp => (hbp B ps).mpr hp), ok_bind,
      mapE_ok (fun d hd => h6 d (by have := List.mem_range.mp hd; omega)), ok_bind, mapE_eq_ok_iff.mpr h4, ok_bind,
      mapE_ok (fun d hd => h7 d (by have := List.mem_range.mp hd; omega)), ok_bind, decide_eq_true rfl]
    rfl

/-- All four tests pass. -/
def PassesAll (b m : Nat) (cs : List (Complex R L)) : Prop :=
  featuresTest b m cs = .ok () ∧ upAttrTest b m cs = .ok () ∧ downAttrTest b m cs = .ok () ∧ boundaryIndexTest b m cs = .ok ()

theorem passesAll {b : Nat} (hb : 0 < b) (m : Nat) {cs : List (Complex R L)} (hr : ∀ c ∈ cs, c.Ready)
    (he : ∀ c ∈ cs, c.NoEmptyUpper) : PassesAll b m cs :=
  ⟨(C115_features_test hb m cs hr).1, (C115_up_attr_test hb m cs hr he).1, (C115_down_attr_test hb m cs hr).1,
    (C115_boundary_index_test hb m cs hr).1⟩

omit [DecidableEq R] [AddCommMonoid R] in
theorem noEmptyUpper_of {c : Complex R L} (h : (c.cochains.all fun k => !(k.upperIndex.map List.isEmpty).getD false) = true) :
    c.NoEmptyUpper := by
  intro d hd
  cases hk : c.cochains[d]? with
  | none => rw [attr_none hk] at hd; cases hd
  | some k =>
    rw [attr_of hk] at hd
    have := List.all_eq_true.mp h k (List.mem_of_getElem? hk)
    rw [hd] at this
    cases this

section
omit [DecidableEq R] [AddCommMonoid R]
variable (num : Nat → R)
theorem house_noEmptyUpper : ∃ c, houseComplex num = .ok c ∧ c.NoEmptyUpper := ⟨_, rfl, noEmptyUpper_of rfl⟩
theorem bridged_noEmptyUpper : ∃ c, bridgedComplex num = .ok c ∧ c.NoEmptyUpper := ⟨_, rfl, noEmptyUpper_of rfl⟩
theorem fullstop_noEmptyUpper : ∃ c, fullstopComplex num = .ok c ∧ c.NoEmptyUpper := ⟨_, rfl, noEmptyUpper_of rfl⟩
theorem colon_noEmptyUpper : ∃ c, colonComplex num = .ok c ∧ c.NoEmptyUpper := ⟨_, rfl, noEmptyUpper_of rfl⟩
theorem square_noEmptyUpper : ∃ c, squareComplex num = .ok c ∧ c.NoEmptyUpper := ⟨_, rfl, noEmptyUpper_of rfl⟩
theorem squareDot_noEmptyUpper : ∃ c, squareDotComplex num = .ok c ∧ c.NoEmptyUpper := ⟨_, rfl, noEmptyUpper_of rfl⟩
theorem kite_noEmptyUpper : ∃ c, kiteComplex num = .ok c ∧ c.NoEmptyUpper := ⟨_, rfl, noEmptyUpper_of rfl⟩
theorem pyramid_noEmptyUpper : ∃ c, pyramidComplex num = .ok c ∧ c.NoEmptyUpper := ⟨_, rfl, noEmptyUpper_of rfl⟩
theorem filledSquare_noEmptyUpper : ∃ c, filledSquareComplex num = .ok c ∧ c.NoEmptyUpper := ⟨_, rfl, noEmptyUpper_of rfl⟩
theorem molecular_noEmptyUpper : ∃ c, molecularComplex num = .ok c ∧ c.NoEmptyUpper := ⟨_, rfl, noEmptyUpper_of rfl⟩
end

omit [DecidableEq R] [AddCommMonoid R] in
theorem testing_noEmptyUpper (num : Nat → R) {cs : List (Complex R Int)} (h : testingComplexes num = .ok cs) :
    ∀ c ∈ cs, c.NoEmptyUpper := by
  obtain ⟨ho, e1, h1⟩ := house_noEmptyUpper num
  obtain ⟨br, e2, h2⟩ := bridged_noEmptyUpper num
  obtain ⟨fs, e3, h3⟩ := fullstop_noEmptyUpper num
  obtain ⟨co, e4, h4⟩ := colon_noEmptyUpper num
  obtain ⟨sq, e5, h5⟩ := square_noEmptyUpper num
  obtain ⟨sd, e6, h6⟩ := squareDot_noEmptyUpper num
  obtain ⟨ki, e7, h7⟩ := kite_noEmptyUpper num
  obtain ⟨py, e8, h8⟩ := pyramid_noEmptyUpper num
  obtain ⟨fi, e9, h9⟩ := filledSquare_noEmptyUpper num
  obtain ⟨mo, e10, h10⟩ := molecular_noEmptyUpper num
  unfold testingComplexes at h
  simp only [mapE_cons, mapE_nil, e1, e2, e3, e4, e5, e6, e7, e8, e9, e10, ok_bind] at h
  cases h
  intro c hc
  simp only [List.mem_cons, List.not_mem_nil, or_false] at hc
  rcases hc with rfl | rfl | rfl | rfl | rfl | rfl | rfl | rfl | rfl | rfl | rfl | rfl | rfl | rfl | rfl | rfl | rfl | rfl |
    rfl | rfl | rfl | rfl | rfl <;> assumption

/-- **C115** The tests pass on the complexes they are run on: the 23 hand-made ones, for every batch size and every dimension
(the code tries batches of 2 to 10 complexes, cut at dimension 1, 2 and 3). -/
theorem C115_hand_made_complexes (num : Nat → R) {b : Nat} (hb : 0 < b) (m : Nat) :
    ∃ cs, testingComplexes num = .ok cs ∧ cs.length = 23 ∧ PassesAll b m cs := by
  obtain ⟨cs, h1, h2, h3, -⟩ := testing_built num
  exact ⟨cs, h1, h2, passesAll hb m (fun c hc => (h3 c hc).1.sound.ready) (testing_noEmptyUpper num h1)⟩

/-- **C115** They pass on any clique complexes of graphs, such as those of the protein graphs. -/
theorem C115_clique_complexes (g : Gudhi) (hg : g.Ok) (agg : List R → R) {b : Nat} (hb : 0 < b) (m k : Nat) (down : Bool)
    (graphs : List (List R × List (Nat × Nat) × Option (List L)))
    (hgr : ∀ G ∈ graphs, EdgesIn G.2.1 G.1.length ∧ 0 < G.1.length ∧ ∀ l, G.2.2 = some l → l.length = 1 ∨ l.length = G.1.length) :
    ∃ cs, mapE (fun G => cliqueComplex g agg (some G.1) G.2.1 G.1.length k G.2.2 down) graphs = .ok cs ∧ PassesAll b m cs := by
  have hex : ∀ G ∈ graphs, ∃ c, cliqueComplex g agg (some G.1) G.2.1 G.1.length k G.2.2 down = .ok c ∧ c.Ready ∧ c.NoEmptyUpper := by
    intro G hG
    obtain ⟨he, h0, hy⟩ := hgr G hG
    have H := holds_expanded hg he k
    obtain ⟨h1, h2⟩ := liftTree_ok (agg := agg) (down := down) H h0 rfl hy
    obtain ⟨⟨c, hc, hr, -⟩, -⟩ := C28_lifting_succeeds g hg agg G.1 G.2.1 G.1.length k G.2.2 down he h0 rfl hy
    refine ⟨c, hc, hr, ?_⟩
    have := hc.symm.trans h1
    rw [ok_inj.mp this]
    intro d
    rw [complexOf_attr]
    split
    · exact nonempty_ne
    · simp
  have : Nonempty (Complex R L) := ⟨{ dimension := 0, cochains := [], y := none }⟩
  choose! f hf hfr hfe using hex
  refine ⟨graphs.map f, mapE_ok hf, passesAll hb m ?_ ?_⟩
  · intro c hc
    obtain ⟨G, hG, rfl⟩ := List.mem_map.mp hc
    exact hfr G hG
  · intro c hc
    obtain ⟨G, hG, rfl⟩ := List.mem_map.mp hc
    exact hfe G hG

namespace Fixtures

/-- A vertex with an upper index that lists no pair. -/
def bareDot : Complex Nat Nat :=
  { dimension := 0, y := none
    cochains := [{ dim := 0, x := some [1], upperIndex := some [], sharedCoboundaries := some [], numCellsUpAttr := some (some 0) }] }

/-- Two vertices and an edge, without the upper adjacency. -/
def looseSegment : Complex Nat Nat :=
  { dimension := 1, y := none
    cochains := [{ dim := 0, x := some [2, 3], numCellsUpAttr := some (some 1) },
      { dim := 1, x := some [4], boundaryIndex := some [(0, 0), (1, 0)], numCellsUpAttr := some (some 0),
        numCellsDownAttr := some (some 2) }] }

end Fixtures

open Fixtures in
/-- **C115** An upper index without pairs is enough for the test of the shared cofaces to fail, on complexes that are ready: the
batch has an empty matrix where the complexes alone have none. -/
theorem C115_empty_upper_index : (∀ c ∈ [bareDot, looseSegment], c.Ready) ∧ upAttrTest 2 2 [bareDot, looseSegment] = .error .assertion ∧
    upAttrTest 1 2 [bareDot, looseSegment] = .ok () := by
  refine ⟨?_, by decide +kernel, by decide +kernel⟩
  intro c hc
  simp only [List.mem_cons, List.not_mem_nil, or_false] at hc
  rcases hc with rfl | rfl
  · exact ⟨validB_sound (by decide), by unfold Complex.Featured; decide, rfl⟩
  · exact ⟨validB_sound (by decide), by unfold Complex.Featured; decide, rfl⟩

namespace Fixtures

theorem looseSegment_ready : looseSegment.Ready := ⟨validB_sound (by decide), by unfold Complex.Featured; decide, rfl⟩

theorem house_ready : house.Ready := ⟨validB_sound (by decide), by unfold Complex.Featured; decide, rfl⟩

theorem house_noEmpty : house.NoEmptyUpper := noEmptyUpper_of (by decide)

theorem looseSegment_noEmpty : looseSegment.NoEmptyUpper := noEmptyUpper_of (by decide)

end Fixtures

section
open Fixtures

/-- Three complexes in batches of two, cut at the edges and not cut at all. -/
example := C115_features_test (b := 2) (by decide) 1 [house, looseSegment, house] (by
  simp only [List.mem_cons, List.not_mem_nil, or_false]
  rintro c (rfl | rfl | rfl)
  exacts [house_ready, looseSegment_ready, house_ready])
example := C115_up_attr_test (b := 2) (by decide) 2 [house, looseSegment, house] (by
  simp only [List.mem_cons, List.not_mem_nil, or_false]
  rintro c (rfl | rfl | rfl)
  exacts [house_ready, looseSegment_ready, house_ready]) (by
  simp only [List.mem_cons, List.not_mem_nil, or_false]
  rintro c (rfl | rfl | rfl)
  exacts [house_noEmpty, looseSegment_noEmpty, house_noEmpty])
example := C115_down_attr_test (b := 2) (by decide) 2 [house, looseSegment] (by
  simp only [List.mem_cons, List.not_mem_nil, or_false]
  rintro c (rfl | rfl)
  exacts [house_ready, looseSegment_ready])
example := C115_boundary_index_test (b := 2) (by decide) 3 [house, looseSegment] (by
  simp only [List.mem_cons, List.not_mem_nil, or_false]
  rintro c (rfl | rfl)
  exacts [house_ready, looseSegment_ready])

/-- The rows that are compared are there. -/
example : gathered ([house, looseSegment].map fun c => c.facesOf 2) = house.facesOf 2 ∧ (house.facesOf 2).isSome ∧
    (house.sharedAbove 1).isSome ∧ (house.sharedBelow 1).isSome ∧ house.sharedAbove 2 = none := by
  refine ⟨by decide, by decide, by decide, by decide, by decide⟩

/-- If the features of shared cofaces were counted at the dimension at which the batches are cut, the test would fail; so it
would if it read the features of another dimension, and a batch size of 0 is refused. -/
example : sameTest (fun _ p => .ok p.upAttr) (fun _ p => .ok p.upAttr) 2 1 [house, house] = .error .assertion ∧
    sameTest (fun _ => getFeatures) (fun _ => getIncident (·.x) Prod.snd) 2 1 [house, house] = .error .assertion ∧
    featuresTest 0 1 [house] = .error .value := by
  refine ⟨by decide +kernel, by decide +kernel, rfl⟩

/-- Missing features, and a boundary index that is missing or does not fit. -/
example : getFeatures ({ x := none } : MPParams Nat) = .error .type ∧
    getIncident (·.x) Prod.snd ({ x := some [1], boundaryAttr := some [2] } : MPParams Nat) = .error .assertion ∧
    getIncident (·.x) Prod.snd ({ x := none, boundaryAttr := some [2], boundaryIndex := some [(0, 0)] } : MPParams Nat) = .error .type ∧
    getIncident (·.x) Prod.snd ({ x := some [1], boundaryIndex := some [(0, 0)] } : MPParams Nat) = .ok none ∧
    boundedParams 0 house = .error .assertion := by
  refine ⟨rfl, rfl, rfl, rfl, by decide +kernel⟩

/-- The numbers as features, batches of 7, cut at dimension 3. -/
example := C115_hand_made_complexes (fun n => n) (b := 7) (by decide) 3

/-- The kite and an edge with a loose vertex, lifted. -/
example := C115_clique_complexes plainGudhi plainGudhi_ok List.sum (b := 2) (by decide) 2 2 true
  [([1, 2, 3, 4, 5], kite, some [7]), ([1, 2, 3], [(0, 1)], none)] (by
  intro G hG
  simp only [List.mem_cons, List.not_mem_nil, or_false] at hG
  rcases hG with rfl | rfl
  · exact ⟨kite_in, by decide, by simp⟩
  · exact ⟨by unfold EdgesIn; decide, by decide, by simp⟩)

end

end Verif
