import Verif.Lemmas.FlowTests

/-!
# C117: The tests of the edge-flow data
-/

namespace Verif

variable {R L P D K : Type}

/-- **C117** `test_create_hole` passes whenever there is something to check: when the corners of the triangles are points and
some triangle has no corner in the region. Otherwise `create_hole` itself fails with an `IndexError`. -/
theorem C117_hole_test (points : List P) (triangles : List Tri) (inside : P → Bool) :
    (((∀ t ∈ triangles, ∀ v ∈ t.corners, v < points.length) ∧ ∃ t ∈ triangles, Outside points inside t) →
      holeTest points triangles inside = .ok ()) ∧
    (¬ ((∀ t ∈ triangles, ∀ v ∈ t.corners, v < points.length) ∧ ∃ t ∈ triangles, Outside points inside t) →
      holeTest points triangles inside = .error .index) := by
  constructor
  · rintro ⟨hc, hk⟩
    obtain ⟨points', triangles', ρ, e, hkept, -, -, -, hout, hcov, -⟩ := C45_create_hole points triangles inside hc hk
    have hne : triangles' ≠ [] := by
      obtain ⟨t, ht, ho⟩ := hk
      rw [hkept]
      exact List.ne_nil_of_mem (List.mem_map_of_mem (List.mem_filter.mpr ⟨ht, decide_eq_true ho⟩))
    have hall : pyAssert (points'.all fun p => !inside p) = .ok () := by
      rw [pyAssert_eq_ok, List.all_eq_true]
      intro p hp
      obtain ⟨i, hi, rfl⟩ := List.getElem_of_mem hp
      obtain ⟨t, ht, hit⟩ := hcov i hi
      simp [(hout t ht).1 i hit _ (List.getElem?_eq_getElem hi)]
    unfold holeTest
    rw [e, ok_bind]
    dsimp only
    rw [extremes_of (fun t ht => (hout t ht).2) hcov hne, ok_bind, hall, ok_bind, checkCovered, pyAssert_eq_ok,
      List.all_eq_true]
    intro i hi
    obtain ⟨t, h1, h2⟩ := hcov i (List.mem_range.mp hi)
    rw [List.any_eq_true]
    exact ⟨t, h1, by simpa using h2⟩
  · intro h
    unfold holeTest
    rw [C45_rejected, error_bind]
    by_contra hn
    push Not at hn
    exact h ⟨hn.1, hn.2⟩

/-- Two of the three triangles stay, with the remaining points renumbered. -/
example : holeTest [10, 20, 30, 40, 50] [(0, 1, 2), (1, 2, 3), (3, 2, 4)] (fun p => p == 10) = .ok () ∧
    holeTest [10, 20, 30] [(0, 1, 2)] (fun p => p == 10) = .error .index ∧
    holeTest [10, 20] [(0, 1, 2)] (fun p => p == 30) = .error .index := by
  decide +kernel

/-- **C117** What the checks of the adjacencies of a cochain mean: on a complex with a triangle whose sides are edges and
whose corners are vertices they pass, whatever the signs; on a complex without triangles they do not, as a matrix without
columns has no maximum. -/
theorem C117_adjacency_checks [AddCommGroup R] (vertices : List Nat) (edges : List (Nat × Nat)) (triangles : List Tri)
    (s : Nat → Int) (hs : Signs s) (row : Nat × Nat → R) (label : L) (c : Cochain R L)
    (h : FlowItem vertices edges triangles s row label c) :
    ((∃ t ∈ triangles, (t.1 ≠ t.2.1 ∧ t.2.1 ≠ t.2.2 ∧ t.2.2 ≠ t.1) ∧ (∀ w ∈ t.corners, w ∈ vertices) ∧
      ∀ u v, u < v → u ∈ t.corners → v ∈ t.corners → (u, v) ∈ edges) → checkAdjacencies c = .ok ()) ∧
    (triangles = [] → checkAdjacencies c = .error .runtime) := by
  constructor
  · rintro ⟨t, ht, hd, hv, he⟩
    exact checkAdjacencies_ok hs h ht hd he hv
  · rintro rfl
    exact checkAdjacencies_error h

theorem allSigns_iff (o : List Int) : allSigns o = true ↔ ∀ v ∈ o, v = 1 ∨ v = -1 := by
  have key : o.count 1 + o.count (-1) ≤ o.length ∧
      (o.count 1 + o.count (-1) = o.length ↔ ∀ v ∈ o, v = 1 ∨ v = -1) := by
    induction o with
    | nil => simp
    | cons a o ih =>
      obtain ⟨h1, h2⟩ := ih
      simp only [List.count_cons, List.length_cons, List.mem_cons, forall_eq_or_imp, beq_iff_eq]
      by_cases e1 : a = 1
      · subst e1
        rw [if_pos rfl, if_neg (by decide), ← h2]
        exact ⟨by omega, by simp only [true_or, true_and]; omega⟩
      · by_cases e2 : a = -1
        · subst e2
          rw [if_neg (by decide), if_pos rfl, ← h2]
          exact ⟨by omega, by simp only [or_true, true_and]; omega⟩
        · rw [if_neg e1, if_neg e2]
          exact ⟨by omega, by simp only [e1, e2, or_self, false_and, iff_false]; omega⟩
  unfold allSigns
  rw [beq_iff_eq]
  exact key.2

theorem maxEntry_below {index : List (Nat × Nat)} {n : Nat} :
    (∃ m, maxEntry index = .ok m ∧ m < n) ↔ index ≠ [] ∧ ∀ p ∈ index, p.1 < n ∧ p.2 < n := by
  unfold maxEntry
  cases hm : (index.flatMap fun p => [p.1, p.2]).max? with
  | none =>
    rw [List.max?_eq_none_iff, List.flatMap_eq_nil_iff] at hm
    constructor
    · rintro ⟨m, h, -⟩
      cases h
    · rintro ⟨hne, -⟩
      obtain ⟨p, hp⟩ := List.exists_mem_of_ne_nil _ hne
      exact absurd (hm p hp) (by simp)
  | some m =>
    obtain ⟨h1, h2⟩ := List.max?_eq_some_iff.mp hm
    constructor
    · rintro ⟨m', h, hlt⟩
      cases h
      refine ⟨(by rintro rfl; cases hm), fun p hp => ⟨?_, ?_⟩⟩
      · exact lt_of_le_of_lt (h2 p.1 (List.mem_flatMap.mpr ⟨p, hp, by simp⟩)) hlt
      · exact lt_of_le_of_lt (h2 p.2 (List.mem_flatMap.mpr ⟨p, hp, by simp⟩)) hlt
    · rintro ⟨-, hall⟩
      refine ⟨m, rfl, ?_⟩
      obtain ⟨p, hp, hmp⟩ := List.mem_flatMap.mp h1
      simp only [List.mem_cons, List.not_mem_nil, or_false] at hmp
      rcases hmp with rfl | rfl
      · exact (hall p hp).1
      · exact (hall p hp).2

/-- **C117** The checks of the adjacencies accept exactly the cochains that have both adjacencies, not empty, between cells
that have features, with one sign for each pair. -/
theorem C117_what_the_checks_detect (c : Cochain R L) : checkAdjacencies c = .ok () ↔
    ∃ x ui uo li lo, c.x = some x ∧ c.upperIndex = some ui ∧ c.upperOrient = some uo ∧ c.lowerIndex = some li ∧
      c.lowerOrient = some lo ∧ uo.length = ui.length ∧ lo.length = li.length ∧
      (ui ≠ [] ∧ ∀ p ∈ ui, p.1 < x.length ∧ p.2 < x.length) ∧ (li ≠ [] ∧ ∀ p ∈ li, p.1 < x.length ∧ p.2 < x.length) ∧
      (∀ v ∈ uo, v = 1 ∨ v = -1) ∧ ∀ v ∈ lo, v = 1 ∨ v = -1 := by
  unfold checkAdjacencies
  constructor
  · intro h
    split at h
    · rename_i x ui uo li lo hx hui huo hli hlo
      obtain ⟨u, h1, h⟩ := bind_eq_ok.mp h
      obtain ⟨u, h2, h⟩ := bind_eq_ok.mp h
      obtain ⟨mu, h3, h⟩ := bind_eq_ok.mp h
      obtain ⟨u, h4, h⟩ := bind_eq_ok.mp h
      obtain ⟨ml, h5, h⟩ := bind_eq_ok.mp h
      obtain ⟨u, h6, h⟩ := bind_eq_ok.mp h
      obtain ⟨u, h7, h⟩ := bind_eq_ok.mp h
      exact ⟨x, ui, uo, li, lo, hx, hui, huo, hli, hlo, by simpa using pyAssert_eq_ok.mp h1,
        by simpa using pyAssert_eq_ok.mp h2, maxEntry_below.mp ⟨mu, h3, by simpa using pyAssert_eq_ok.mp h4⟩,
        maxEntry_below.mp ⟨ml, h5, by simpa using pyAssert_eq_ok.mp h6⟩, (allSigns_iff _).mp (pyAssert_eq_ok.mp h7),
        (allSigns_iff _).mp (pyAssert_eq_ok.mp h)⟩
    · cases h
  · rintro ⟨x, ui, uo, li, lo, hx, hui, huo, hli, hlo, h1, h2, h3, h4, h5, h6⟩
    obtain ⟨mu, a1, a2⟩ := maxEntry_below.mpr h3
    obtain ⟨ml, b1, b2⟩ := maxEntry_below.mpr h4
    rw [hx, hui, huo, hli, hlo]
    simp [h1, h2, a1, b1, a2, b2, (allSigns_iff _).mpr h5, (allSigns_iff _).mpr h6, pyAssert, ok_bind]

/-- **C117** `test_flow_util_dataset_loading`: when the dataset can be made the test passes if and only if both splits have
an even number of samples (as 20 and 10 are), whatever the points, the triangulation and the random numbers; for an odd
number the last of the counts is wrong. When the dataset cannot be made the test fails in the same way. -/
theorem C117_flow_test [LinearOrder D] (lib : SparseLib) (hlib : lib.Correct) (rg : FlowRegions P) (dist : P → P → D)
    (points : List P) (simplices : List Tri) (ht : Triangulates points simplices) (hdiff : DifferentTriangles simplices)
    (numTrain numTest : Nat) (trainO testO : String) (trainD testD : SampleDraws) :
    (∀ r, loadFlowDataset lib rg dist (fun k => k) points simplices numTrain numTest trainO testO trainD testD = .ok r →
      (numTrain % 2 = 0 ∧ numTest % 2 = 0 →
        flowTest lib rg dist points simplices numTrain numTest trainO testO trainD testD = .ok ()) ∧
      (¬ (numTrain % 2 = 0 ∧ numTest % 2 = 0) →
        flowTest lib rg dist points simplices numTrain numTest trainO testO trainD testD = .error .assertion)) ∧
    (∀ e, loadFlowDataset lib rg dist (fun k => k) points simplices numTrain numTest trainO testO trainD testD = .error e →
      flowTest lib rg dist points simplices numTrain numTest trainO testO trainD testD = .error e) := by
  constructor
  · rintro ⟨train, test, G⟩ h
    have hex : ∃ t ∈ simplices, Outside points rg.hole1 t ∧ Outside points rg.hole2 t := by
      have h' := h
      unfold loadFlowDataset at h'
      obtain ⟨r, hr, -⟩ := bind_eq_ok.mp h'
      exact flowTriangulation_some ht hr
    obtain ⟨points', triangles', ρ, G', B1, B2, edges, wh, ht', hG, hs, hdict, hel, hb, heq⟩ :=
      loadFlowDataset_eq lib hlib rg dist (fun k : Int => k) ht hdiff hex
    obtain ⟨t', ht2⟩ : ∃ t', t' ∈ triangles' := by
      obtain ⟨t, h1, h2⟩ := hex
      exact ⟨_, by rw [wh.kept]; exact List.mem_map_of_mem (List.mem_filter.mpr ⟨h1, decide_eq_true h2⟩)⟩
    have hload := h
    rw [heq] at h
    obtain ⟨tr, h1, h⟩ := bind_eq_ok.mp h
    obtain ⟨te, h2, h⟩ := bind_eq_ok.mp h
    rw [ok_inj, Prod.mk.injEq, Prod.mk.injEq] at h
    obtain ⟨rfl, rfl, rfl⟩ := h
    obtain ⟨a1, a2, -, -⟩ := flowSamples_done hlib rg dist (fun k : Int => k) hG hdict hel hb h1
    obtain ⟨b1, b2, -, -⟩ := flowSamples_done hlib rg dist (fun k : Int => k) hG hdict hel hb h2
    have good : ∀ {o n i} {c : Cochain Int Nat}, FlowSample rg (fun k : Int => k) points' triangles' edges o n i c →
        checkDirections c = .ok () ∧ checkAdjacencies c = .ok () ∧ c.y = some [if i < n / 2 then 0 else 1] := by
      rintro o n i c ⟨s, path, hs', -, -, hitem⟩
      refine ⟨checkDirections_ok hs' hitem, checkAdjacencies_ok hs' hitem ht2 (ht'.distinct t' ht2) ?_ ?_, hitem.y⟩
      · intro u v huv hu hv
        exact (hs.mem u v).mpr ⟨huv, t', ht2, hu, hv⟩
      · intro w hw
        exact List.mem_range.mpr (ht'.corners t' ht2 w hw)
    have hsteps := flowTestSteps (tr ++ te) (0, 0) (by
      intro c hc
      have fin : ∀ {o n i} {c : Cochain Int Nat}, FlowSample rg (fun k : Int => k) points' triangles' edges o n i c →
          checkDirections c = .ok () ∧ checkAdjacencies c = .ok () ∧ (c.y = some [0] ∨ c.y = some [1]) := by
        intro o n i c hsample
        obtain ⟨g1, g2, g3⟩ := good hsample
        refine ⟨g1, g2, ?_⟩
        rw [g3]
        split
        · exact .inl rfl
        · exact .inr rfl
      rcases List.mem_append.mp hc with hc | hc
      · obtain ⟨i, hi, rfl⟩ := List.getElem_of_mem hc
        exact fin (a2 i _ (List.getElem?_eq_getElem hi))
      · obtain ⟨i, hi, rfl⟩ := List.getElem_of_mem hc
        exact fin (b2 i _ (List.getElem?_eq_getElem hi)))
    have l1 := labels_of a1 fun i c hc => (good (a2 i c hc)).2.2
    have l2 := labels_of b1 fun i c hc => (good (b2 i c hc)).2.2
    have c0 : ((tr ++ te).map fun c => c.y).count (some [0]) = numTrain / 2 + numTest / 2 := by
      rw [List.map_append, l1, l2]
      simp [List.count_append, List.count_replicate]
    have c1 : ((tr ++ te).map fun c => c.y).count (some [1]) = (numTrain - numTrain / 2) + (numTest - numTest / 2) := by
      rw [List.map_append, l1, l2]
      simp [List.count_append, List.count_replicate]
    have hrun : flowTest lib rg dist points simplices numTrain numTest trainO testO trainD testD =
        pyAssert ((numTrain - numTrain / 2) + (numTest - numTest / 2) == numTrain / 2 + numTest / 2) := by
      unfold flowTest
      rw [hload, ok_bind]
      dsimp only
      have p1 : pyAssert (tr.length == numTrain) = .ok () := by rw [pyAssert_eq_ok, a1, beq_self_eq_true]
      have p2 : pyAssert (te.length == numTest) = .ok () := by rw [pyAssert_eq_ok, b1, beq_self_eq_true]
      rw [p1, ok_bind, p2, ok_bind, hsteps, ok_bind]
      dsimp only
      rw [c0, c1, Nat.zero_add, Nat.zero_add]
      have p3 : pyAssert (numTrain / 2 + numTest / 2 == numTrain / 2 + numTest / 2) = .ok () := by
        rw [pyAssert_eq_ok, beq_self_eq_true]
      rw [p3, ok_bind]
    rw [hrun]
    constructor
    · intro hev
      rw [pyAssert_eq_ok, beq_iff_eq]
      omega
    · intro hod
      have : ((numTrain - numTrain / 2) + (numTest - numTest / 2) == numTrain / 2 + numTest / 2) = false := by
        rw [beq_eq_false_iff_ne]
        omega
      rw [this]
      rfl
  · intro e h
    unfold flowTest
    rw [h, error_bind]

/-- The strip with a hole: two samples in each split pass, three do not. -/
example : flowTest rowMajorLib meshRegions gap mesh meshTriangles 2 2 "default" "random" meshDraws meshDraws = .ok () ∧
    flowTest rowMajorLib meshRegions gap mesh meshTriangles 3 2 "default" "random" meshDraws meshDraws =
      .error .assertion := by
  unfold flowTest loadFlowDataset
  rw [mesh_with_holes meshRegions rfl rfl, ok_bind]
  decide +kernel

/-- A path with two edges. -/
def loneSteps : Cochain ℚ Nat where
  dim := 1
  x := some [1, 0]
  upperIndex := some []
  upperOrient := some []
  lowerIndex := some [(0, 1), (1, 0)]
  lowerOrient := some [-1, -1]

/-- The cochains of the strip, and a cochain over a path without triangles. -/
example : mapE checkAdjacencies (meshDefault ++ meshRandom) = .ok [(), (), (), ()] ∧
    checkAdjacencies loneSteps = .error .runtime := by
  decide +kernel

/-- **C117** `test_ocean_dataset_generation`, for a file whose faces have ascending corners and edges as sides: when the
dataset can be made the test passes if and only if the splits have the expected sizes, which are a rounded 80 and 20 percent
of the paths, and the file has a face. -/
theorem C117_ocean_test [CommRing K] [LinearOrder K] [IsStrictOrderedRing K] [AddCommGroup R] (lib : SparseLib)
    (hlib : lib.Correct) (toRow : Int → R) (edgeList : List (Nat × Nat))
    (hloop : LoopFree edgeList) (faceList : List Tri) (hnd : faceList.Nodup)
    (hfaces : ∀ t ∈ faceList, t.1 < t.2.1 ∧ t.2.1 < t.2.2 ∧
      ∀ u ∈ t.corners, ∀ v ∈ t.corners, u ≠ v → (u, v) ∈ edgeList ∨ (v, u) ∈ edgeList)
    (coords : List (K × K)) (center : K × K) (trajectories : List (List Nat)) (mask : List Nat) (bits : Nat → Nat → Bool)
    (trainO testO : String) (train test : List (Cochain R Nat))
    (h : loadOceanDataset lib toRow edgeList faceList coords center trajectories mask bits trainO testO = .ok (train, test))
    (paths : List (List Nat)) (hpaths : oceanPaths trajectories = .ok paths)
    (hmask : mask.Perm (maskBeforeShuffle paths.length)) (numTrain numTest : Nat) :
    (train.length = mask.count 1 ∧ test.length = mask.count 0) ∧
    (train.length = numTrain → test.length = numTest → faceList ≠ [] →
      oceanTest lib toRow edgeList faceList coords center trajectories mask bits trainO testO numTrain numTest = .ok ()) ∧
    (train.length = numTrain → test.length = numTest → faceList = [] →
      oceanTest lib toRow edgeList faceList coords center trajectories mask bits trainO testO numTrain numTest =
        .error .runtime) ∧
    (¬ (train.length = numTrain ∧ test.length = numTest) →
      oceanTest lib toRow edgeList faceList coords center trajectories mask bits trainO testO numTrain numTest =
        .error .assertion) := by
  obtain ⟨V, E, faces, trainIds, testIds, -, hV, -, hE, hperm, hall, hin1, hin0, hp1, hp2, f1, f2⟩ :=
    C84_ocean_items lib hlib toRow edgeList hloop faceList hnd coords center trajectories mask bits trainO testO train test h
      paths hpaths hmask
  have hcount : ∀ (ids : List Nat) (b : Nat), ids.Pairwise (· < ·) → (∀ i, i ∈ ids ↔ mask[i]? = some b) →
      ids.length = mask.count b := by
    intro ids b hp hi
    have e : ids.Perm ((List.range mask.length).filter fun i => mask[i]? == some b) := by
      rw [List.perm_ext_iff_of_nodup (hp.imp (by omega)) (List.nodup_range.filter _)]
      intro i
      rw [hi, List.mem_filter, List.mem_range, beq_iff_eq]
      exact ⟨fun h => ⟨lt_of_getElem? h, h⟩, fun h => h.2⟩
    rw [e.length_eq]
    clear e hp hi hin1 hin0 hmask h
    rw [← List.countP_eq_length_filter]
    induction mask with
    | nil => rfl
    | cons m l ih =>
      rw [List.length_cons, List.range_succ_eq_map, List.countP_cons, List.countP_map, List.count_cons, ← ih]
      have : ((fun i => (m :: l)[i]? == some b) ∘ Nat.succ) = fun i => l[i]? == some b := by
        funext i
        simp
      rw [this]
      simp
  have hparts : 100 < paths.length := by
    obtain ⟨B1, B2, paths', flows, labels, hB, hp, hgt, hf, hl, hs⟩ := loadOcean_parts h
    rw [hpaths, ok_inj] at hp
    subst hp
    exact hgt
  have hitems : ∀ c ∈ train ++ test, ∃ s row y, Signs s ∧ FlowItem V E faces s row y c := by
    have from2 : ∀ {ids cs o}, List.Forall₂ (fun (i : Nat) (c : Cochain R Nat) => ∃ path, paths[i]? = some path ∧
        OceanSample toRow V E faces coords center o path c) ids cs → ∀ c ∈ cs, ∃ s row y, Signs s ∧
          FlowItem V E faces s row y c := by
      intro ids cs o hF
      induction hF with
      | nil => intro c hc; cases hc
      | cons hic _ ih =>
        intro c hc
        rcases List.mem_cons.mp hc with rfl | hc
        · obtain ⟨path, -, s, y, a, b, p, q, hs, -, -, -, -, -, -, hitem⟩ := hic
          exact ⟨s, _, y, hs, hitem⟩
        · exact ih c hc
    intro c hc
    rcases List.mem_append.mp hc with hc | hc
    · exact from2 f1 c hc
    · exact from2 f2 c hc
  have hne : train ++ test ≠ [] := by
    intro hnil
    have := hall.length_eq
    rw [List.length_append, f1.length_eq, f2.length_eq, ← List.length_append, hnil, List.length_range] at this
    simp at this
    omega
  refine ⟨⟨by rw [← f1.length_eq, hcount _ _ hp1 hin1], by rw [← f2.length_eq, hcount _ _ hp2 hin0]⟩, ?_, ?_, ?_⟩
  · intro h1 h2 hf
    obtain ⟨t, ht⟩ := List.exists_mem_of_ne_nil _ hf
    obtain ⟨g1, g2, g3⟩ := hfaces t ht
    have hok : ∀ c ∈ train ++ test, ∃ u, checkAdjacencies c = .ok u := by
      intro c hc
      obtain ⟨s, row, y, hs, hitem⟩ := hitems c hc
      refine ⟨(), checkAdjacencies_ok hs hitem (hperm.mem_iff.mpr ht) ⟨by omega, by omega, by omega⟩ ?_ ?_⟩
      · intro u v huv hu hv
        exact (hE u v).mpr ⟨huv, g3 u hu v hv (by omega)⟩
      · intro w hw
        rw [hV]
        have : ∃ w' ∈ t.corners, w ≠ w' := by
          by_cases hw1 : w = t.1
          · exact ⟨t.2.1, by simp [Tri.corners], by omega⟩
          · exact ⟨t.1, by simp [Tri.corners], hw1⟩
        obtain ⟨w', hw', hne'⟩ := this
        rcases g3 w hw w' hw' hne' with h | h
        · exact ⟨_, h, .inl rfl⟩
        · exact ⟨_, h, .inr rfl⟩
    obtain ⟨us, hus⟩ := mapE_exists hok
    unfold oceanTest
    rw [h, ok_bind]
    dsimp only
    rw [h1, h2, beq_self_eq_true, beq_self_eq_true, hus]
    rfl
  · intro h1 h2 hf
    subst hf
    have hfnil : faces = [] := hperm.eq_nil
    unfold oceanTest
    rw [h, ok_bind]
    dsimp only
    rw [h1, h2, beq_self_eq_true, beq_self_eq_true]
    have : mapE checkAdjacencies (train ++ test) = .error .runtime := by
      cases hcs : train ++ test with
      | nil => exact absurd hcs hne
      | cons c cs =>
        obtain ⟨s, row, y, hs, hitem⟩ := hitems c (by rw [hcs]; simp)
        rw [hfnil] at hitem
        simp only [mapE, checkAdjacencies_error hitem]
        rfl
    rw [this]
    rfl
  · intro hno
    unfold oceanTest
    rw [h, ok_bind]
    dsimp only
    by_cases h1 : train.length = numTrain
    · have h2 : test.length ≠ numTest := fun h2 => hno ⟨h1, h2⟩
      rw [h1, beq_self_eq_true, beq_eq_false_iff_ne.mpr h2]
      rfl
    · rw [beq_eq_false_iff_ne.mpr h1]
      rfl

/-- 101 paths along a strip: the test with the right numbers passes, whatever the shuffle and the orientations. -/
example (mask : List Nat) (hm : mask.Perm (maskBeforeShuffle 101)) (bits : Nat → Nat → Bool) (trainO testO : String)
    (h1 : KnownOrientation trainO) (h2 : KnownOrientation testO) :
    oceanTest rowMajorLib (fun k => (k : ℚ)) shore shoreFaces shoreCoords (0, 0) drifts mask bits trainO testO 81 20 =
      .ok () := by
  obtain ⟨paths, hp, h⟩ := C84_ocean_succeeds rowMajorLib rowMajorLib_correct (fun k => (k : ℚ)) shore (by unfold LoopFree; decide)
    shoreFaces (by decide) (by decide) shoreCoords (0, 0) drifts shore_along
  rw [drifts_paths, ok_inj] at hp
  subst hp
  obtain ⟨train, test, hl⟩ := (h (by
    intro path hpath
    simp only [List.mem_append, List.mem_replicate, List.mem_singleton] at hpath
    rcases hpath with ⟨-, rfl⟩ | rfl
    · exact ⟨0, 4, (-3, 0), (3, 1), rfl, rfl, rfl, rfl, by decide⟩
    · exact ⟨4, 0, (3, 1), (-3, 0), rfl, rfl, rfl, rfl, by decide⟩) mask (by simpa using hm) bits trainO testO h1 h2).2.2
    (by simp)
  obtain ⟨⟨l1, l2⟩, hok, -⟩ := C117_ocean_test rowMajorLib rowMajorLib_correct (fun k => (k : ℚ)) shore
    (by unfold LoopFree; decide) shoreFaces (by decide) (by decide) shoreCoords (0, 0) drifts mask bits trainO testO train test
    hl _ drifts_paths (by simpa using hm) 81 20
  refine hok ?_ ?_ (by decide)
  · rw [l1, hm.count_eq]
    decide +kernel
  · rw [l2, hm.count_eq]
    decide +kernel

/-- Two edges that are neighbours above and, for the given pairs, below. -/
def twoEdges (below : List (Nat × Nat)) : Cochain Int Nat where
  dim := 1
  x := some [1, 0]
  upperIndex := some [(0, 1), (1, 0)]
  upperOrient := some [1, 1]
  lowerIndex := some below
  lowerOrient := some [-1, -1]

/-- The checks accept two neighbours, and notice a neighbour that does not exist. -/
example : checkAdjacencies (twoEdges [(0, 1), (1, 0)]) = .ok () ∧
    checkAdjacencies (twoEdges [(0, 2), (2, 0)]) = .error .assertion := by
  decide

end Verif
