import Verif.Props.FlowDatasets

/-!
# The ocean drifter dataset (C84)
-/

namespace Verif

variable {R L K 𝕜 : Type}

theorem ascending_different {faces : List Tri} (hasc : ∀ t ∈ faces, t.1 < t.2.1 ∧ t.2.1 < t.2.2) (hnd : faces.Nodup) :
    DifferentTriangles faces := by
  intro i j s t hs ht hst
  have h1 := hasc s (List.mem_of_getElem? hs)
  have h2 := hasc t (List.mem_of_getElem? ht)
  obtain ⟨a, b, c⟩ := s
  obtain ⟨x, y, z⟩ := t
  simp only [Tri.corners, List.mem_cons, List.not_mem_nil, or_false] at hst h1 h2
  have e1 := (hst a).mp (.inl rfl)
  have e2 := (hst b).mp (.inr (.inl rfl))
  have e3 := (hst c).mp (.inr (.inr rfl))
  have e : a = x ∧ b = y ∧ c = z := by omega
  obtain ⟨rfl, rfl, rfl⟩ := e
  have p1 := lt_of_get hs
  have p2 := lt_of_get ht
  rw [List.getElem?_eq_getElem p1, Option.some.injEq] at hs
  rw [List.getElem?_eq_getElem p2, Option.some.injEq] at ht
  exact (List.Nodup.getElem_inj_iff hnd (hi := p1) (hj := p2)).mp (hs.trans ht.symm)

theorem ocean_complex [AddCommGroup R] {lib : SparseLib} (hlib : lib.Correct) {edgeList : List (Nat × Nat)}
    (hloop : LoopFree edgeList) {faces : List Tri} (hnd : faces.Nodup) {B1 B2 : Mat}
    (h : incidenceMatrices (oceanArrays edgeList).1 (oceanArrays edgeList).2 faces
      (edgeNumbers (oceanArrays edgeList).2) = .ok (B1, B2)) :
    B1.cols = B2.rows ∧ ∀ (row : Nat × Nat → R) (label : L),
      ∃ c, buildCochain lib B1 B2 (Mat.identity B1.cols) ((oceanArrays edgeList).2.map row) label
          (some (oceanArrays edgeList).2.length) = .ok c ∧
        FlowItem (oceanArrays edgeList).1 (oceanArrays edgeList).2 faces (fun _ => 1) row label c := by
  obtain ⟨hV, -, hE, -, -, B1', hB1', r1, c1, m1⟩ := C42_arrays edgeList hloop (oceanArrays edgeList).1 (oceanArrays edgeList).2 rfl
  have hlt := arrays_lt hloop
  unfold incidenceMatrices at h
  obtain ⟨B, hB, h⟩ := bind_eq_ok.mp h
  obtain ⟨C, hC, h⟩ := bind_eq_ok.mp h
  have h := ok_inj.mp h
  rw [Prod.mk.injEq] at h
  obtain ⟨rfl, rfl⟩ := h
  rw [hB, ok_inj] at hB1'
  subst hB1'
  obtain ⟨r2, c2, m2⟩ := faces_done (oceanNumbers edgeList) hlt hC
  have hasc : ∀ t ∈ faces, t.1 < t.2.1 ∧ t.2.1 < t.2.2 := by
    intro t ht
    obtain ⟨i, hi⟩ := List.getElem?_of_mem ht
    obtain ⟨e1, e2, e3, g1, g2, -⟩ := m2 i t hi
    exact ⟨hlt _ (List.mem_of_getElem? g1), hlt _ (List.mem_of_getElem? g2)⟩
  refine ⟨by rw [c1, r2], fun row label => ?_⟩
  apply build_item hlib hV hE hlt ?_ (ascending_different hasc hnd) r1 c1 r2 c2
  · intro v e w q hw hq
    obtain ⟨a, b⟩ := q
    obtain ⟨k1, k2, k3⟩ := m1 v e w a b hw hq
    unfold endSign
    by_cases h1 : w = b
    · rw [if_pos h1, k1.mpr h1]
    · by_cases h2 : w = a
      · rw [if_neg h1, if_pos h2, k2.mpr h2]
      · rw [if_neg h1, if_neg h2, k3.mpr ⟨h2, h1⟩]
  · intro e i q t hq ht
    have hat := hasc t (List.mem_of_getElem? ht)
    have hq' := hlt _ (List.mem_of_getElem? hq)
    obtain ⟨e1, e2, e3, g1, g2, g3, s1, s2, s3, s4⟩ := m2 i t ht
    have inj : ∀ {f q'}, (oceanArrays edgeList).2[f]? = some q' → (e = f ↔ q = q') := by
      intro f q' hf
      constructor
      · rintro rfl
        rw [hq, Option.some.injEq] at hf
        exact hf
      · rintro rfl
        have p1 := lt_of_get hq
        have p2 := lt_of_get hf
        rw [List.getElem?_eq_getElem p1, Option.some.injEq] at hq
        rw [List.getElem?_eq_getElem p2, Option.some.injEq] at hf
        exact (List.Nodup.getElem_inj_iff hE (hi := p1) (hj := p2)).mp (hq.trans hf.symm)
    obtain ⟨a, b⟩ := q
    obtain ⟨x, y, z⟩ := t
    simp only at hat hq' g1 g2 g3
    unfold sideSign
    simp only [List.mem_cons, List.not_mem_nil, or_false, Prod.swap, Prod.mk.injEq]
    by_cases h1 : e = e1
    · rw [h1, s1]
      obtain ⟨rfl, rfl⟩ := Prod.mk.inj ((inj g1).mp h1)
      simp
    · by_cases h2 : e = e2
      · rw [h2, s2]
        obtain ⟨rfl, rfl⟩ := Prod.mk.inj ((inj g2).mp h2)
        simp
      · by_cases h3 : e = e3
        · rw [h3, s3]
          obtain ⟨rfl, rfl⟩ := Prod.mk.inj ((inj g3).mp h3)
          rw [if_neg (by omega), if_pos (by omega)]
        · rw [s4 e h1 h2 h3]
          have n1 : ¬ (a = x ∧ b = y) := fun ⟨u, v⟩ => h1 ((inj g1).mpr (by rw [u, v]))
          have n2 : ¬ (a = y ∧ b = z) := fun ⟨u, v⟩ => h2 ((inj g2).mpr (by rw [u, v]))
          have n3 : ¬ (a = x ∧ b = z) := fun ⟨u, v⟩ => h3 ((inj g3).mpr (by rw [u, v]))
          rw [if_neg (by omega), if_neg (by omega)]
  · intro t ht
    have := hasc t ht
    omega

/-- The cochain of a drifter: the path along the edges of the graph, with its class. -/
def OceanSample [CommRing K] [LinearOrder K] [AddCommGroup R] (toRow : Int → R) (V : List Nat) (E : List (Nat × Nat))
    (faces : List Tri) (coords : List (K × K)) (center : K × K) (orientation : String) (path : List Nat)
    (c : Cochain R Nat) : Prop :=
  ∃ s y a b p q, Signs s ∧ (orientation = "default" → s = fun _ => 1) ∧ path.head? = some a ∧ path.getLast? = some b ∧
    coords[a]? = some p ∧ coords[b]? = some q ∧ ((y = 0 ∧ turn center p q < 0) ∨ (y = 1 ∧ 0 < turn center p q)) ∧
    FlowItem V E faces s (fun e => toRow (netPassages path e)) y c

theorem extractLabel_done [CommRing K] [LinearOrder K] [IsStrictOrderedRing K] {path : List Nat} {coords : List (K × K)}
    {center : K × K} {y : Nat} (h : extractLabel path coords center = .ok y) :
    ∃ a b p q, path.head? = some a ∧ path.getLast? = some b ∧ coords[a]? = some p ∧ coords[b]? = some q ∧
      ((y = 0 ∧ turn center p q < 0) ∨ (y = 1 ∧ 0 < turn center p q)) := by
  have h' := h
  unfold extractLabel at h
  cases ha : path.head? with
  | none => rw [ha] at h; cases h
  | some a =>
    cases hb : path.getLast? with
    | none => rw [ha, hb] at h; cases h
    | some b =>
      rw [ha, hb] at h
      simp only at h
      obtain ⟨p, hp, h⟩ := bind_eq_ok.mp h
      obtain ⟨q, hq, h⟩ := bind_eq_ok.mp h
      rw [getAt_eq_ok] at hp hq
      refine ⟨a, b, p, q, rfl, rfl, hp, hq, ?_⟩
      rw [orientation_turn] at h
      split at h
      · next hl =>
        rw [ok_inj] at h
        exact .inl ⟨h.symm, hl⟩
      · split at h
        · next hl =>
          rw [ok_inj] at h
          exact .inr ⟨h.symm, hl⟩
        · cases h

section
variable [AddCommGroup R] [CommRing K] [LinearOrder K] [IsStrictOrderedRing K]

theorem oceanCochain_ok {lib : SparseLib} (hlib : lib.Correct) (toRow : Int → R) {edgeList : List (Nat × Nat)}
    (hloop : LoopFree edgeList) {faces : List Tri} (hnd : faces.Nodup) {B1 B2 : Mat}
    (hB : incidenceMatrices (oceanArrays edgeList).1 (oceanArrays edgeList).2 faces
      (edgeNumbers (oceanArrays edgeList).2) = .ok (B1, B2)) {paths : List (List Nat)} {flows : List (List Int)}
    {labels : List Nat} {coords : List (K × K)} {center : K × K}
    (hf : mapE (fun p => pathToFlow p (edgeNumbers (oceanArrays edgeList).2) (oceanArrays edgeList).2.length) paths =
      .ok flows)
    (hl : mapE (fun p => extractLabel p coords center) paths = .ok labels) {i : Nat} {path : List Nat}
    (hi : paths[i]? = some path) :
    ∃ c0, EdgeOnly c0 ∧ ∀ orientation bits, KnownOrientation orientation → ∃ s, Signs s ∧
      oceanCochain lib toRow B1 B2 (oceanArrays edgeList).2.length flows labels bits i orientation = .ok (c0.flip s) ∧
      OceanSample toRow (oceanArrays edgeList).1 (oceanArrays edgeList).2 faces coords center orientation path
        (c0.flip s) := by
  have hip := lt_of_get hi
  have f1 := mapE_eq_ok_iff.mp hf
  have f2 := mapE_eq_ok_iff.mp hl
  have i1 : i < flows.length := by rw [← f1.length_eq]; exact hip
  have i2 : i < labels.length := by rw [← f2.length_eq]; exact hip
  have g1 := f1.get hip i1
  have g2 := f2.get hip i2
  have hpath : paths[i] = path := by rw [List.getElem?_eq_getElem hip, Option.some.injEq] at hi; exact hi
  simp only [List.get_eq_getElem, hpath] at g1 g2
  obtain ⟨l1, v1⟩ := C42_flow_counts_passages edgeList hloop (oceanArrays edgeList).1 (oceanArrays edgeList).2
    rfl path _ g1
  have hx : flows[i] = (oceanArrays edgeList).2.map (netPassages path) := by
    apply List.ext_getElem?
    intro e
    by_cases he : e < (oceanArrays edgeList).2.length
    · rw [v1 e _ (List.getElem?_eq_getElem he), List.getElem?_map, List.getElem?_eq_getElem he]
      rfl
    · rw [List.getElem?_eq_none (by omega), List.getElem?_eq_none (by simp; omega)]
  obtain ⟨-, hb⟩ := ocean_complex (R := R) (L := Nat) hlib hloop hnd hB
  obtain ⟨c0, h0, h1⟩ := hb (fun e => toRow (netPassages path e)) labels[i]
  obtain ⟨a, b, p, q, k1, k2, k3, k4, k5⟩ := extractLabel_done g2
  refine ⟨c0, h1.edgeOnly, fun orientation bits ho => ?_⟩
  obtain ⟨T2, s, c', t1, t2, t3, t4, rfl, t6⟩ := orient_build hlib h0 h1 orientation (bits i) ho
  refine ⟨s, t3, ?_, s, labels[i], a, b, p, q, t3, t4, k1, k2, k3, k4, k5, t6⟩
  unfold oceanCochain
  rw [t1, ok_bind, getAt_eq_ok.mpr (List.getElem?_eq_getElem i1), ok_bind, getAt_eq_ok.mpr (List.getElem?_eq_getElem i2),
    ok_bind, hx, List.map_map]
  exact t2

/-- The part of `load_ocean_dataset` after the paths. -/
theorem loadOcean_parts {lib : SparseLib} {toRow : Int → R} {edgeList : List (Nat × Nat)} {faceList : List Tri}
    {coords : List (K × K)} {center : K × K} {trajectories : List (List Nat)} {mask : List Nat} {bits : Nat → Nat → Bool}
    {trainO testO : String} {r : List (Cochain R Nat) × List (Cochain R Nat)}
    (h : loadOceanDataset lib toRow edgeList faceList coords center trajectories mask bits trainO testO = .ok r) :
    ∃ B1 B2 paths flows labels,
      incidenceMatrices (oceanArrays edgeList).1 (oceanArrays edgeList).2
        (faceList.insertionSort fun s t => triLe s t = true) (edgeNumbers (oceanArrays edgeList).2) = .ok (B1, B2) ∧
      oceanPaths trajectories = .ok paths ∧ 100 < paths.length ∧
      mapE (fun p => pathToFlow p (edgeNumbers (oceanArrays edgeList).2) (oceanArrays edgeList).2.length) paths = .ok flows ∧
      mapE (fun p => extractLabel p coords center) paths = .ok labels ∧
      splitCochains flows.length mask (oceanCochain lib toRow B1 B2 (oceanArrays edgeList).2.length flows labels bits)
        trainO testO = .ok r := by
  unfold loadOceanDataset at h
  obtain ⟨⟨B1, B2⟩, h1, h⟩ := bind_eq_ok.mp h
  obtain ⟨paths, h2, h⟩ := bind_eq_ok.mp h
  split at h
  · cases h
  · obtain ⟨flows, h3, h⟩ := bind_eq_ok.mp h
    obtain ⟨labels, h4, h⟩ := bind_eq_ok.mp h
    obtain ⟨y, h5, h⟩ := bind_eq_ok.mp h
    obtain ⟨-, -, h⟩ := bind_eq_ok.mp h
    obtain ⟨-, -, h⟩ := bind_eq_ok.mp h
    rw [getAt_eq_ok] at h5
    have := lt_of_get h5
    rw [mapE_length h4] at this
    exact ⟨B1, B2, paths, flows, labels, h1, h2, this, h3, h4, h⟩

theorem sortedFaces_nodup {faceList : List Tri} (h : faceList.Nodup) :
    (faceList.insertionSort fun s t => triLe s t = true).Nodup :=
  (List.perm_insertionSort _ faceList).nodup_iff.mpr h

theorem loadOcean_eq {lib : SparseLib} (hlib : lib.Correct) {toRow : Int → R} {edgeList : List (Nat × Nat)}
    (hloop : LoopFree edgeList) {faceList : List Tri} (hnd : faceList.Nodup)
    {coords : List (K × K)} {center : K × K} {trajectories : List (List Nat)} {mask : List Nat}
    {B1 B2 : Mat} {paths : List (List Nat)} {flows : List (List Int)} {labels : List Nat}
    (hB : incidenceMatrices (oceanArrays edgeList).1 (oceanArrays edgeList).2
        (faceList.insertionSort fun s t => triLe s t = true) (edgeNumbers (oceanArrays edgeList).2) = .ok (B1, B2))
    (hp : oceanPaths trajectories = .ok paths)
    (hf : mapE (fun p => pathToFlow p (edgeNumbers (oceanArrays edgeList).2) (oceanArrays edgeList).2.length) paths =
      .ok flows)
    (hl : mapE (fun p => extractLabel p coords center) paths = .ok labels) (hmlen : mask.length = paths.length)
    (bits : Nat → Nat → Bool) (trainO testO : String) :
    loadOceanDataset lib toRow edgeList faceList coords center trajectories mask bits trainO testO =
      if paths = [] then .error .value
      else getAt labels 100 >>= fun _ =>
        splitCochains flows.length mask (oceanCochain lib toRow B1 B2 (oceanArrays edgeList).2.length flows labels bits)
          trainO testO := by
  have hlen2 : labels.length = paths.length := mapE_length hl
  obtain ⟨hcols, -⟩ := ocean_complex (R := R) (L := Nat) hlib hloop (sortedFaces_nodup hnd) hB
  unfold loadOceanDataset
  have a1 : pyAssert (decide (labels.length = mask.length)) = .ok () := by
    rw [pyAssert_eq_ok]
    simp [hlen2, hmlen]
  have a2 : pyAssert (decide (B1.cols = B2.rows)) = .ok () := by rw [pyAssert_eq_ok]; simpa using hcols
  simp only
  rw [hB, ok_bind, hp, ok_bind]
  simp only
  rw [hf, ok_bind, hl, ok_bind]
  simp only [a1, a2, ok_bind]

/-- **C84** The ocean dataset: its cochains are those of the paths that are left of the trajectories, each path in one of
the two splits, as cochains on the edges of the graph with the adjacencies of the complex; the value on an edge is the
number of passages along it minus the number against it, the class says which way the path turns around the centre. -/
theorem C84_ocean_items (lib : SparseLib) (hlib : lib.Correct) (toRow : Int → R) (edgeList : List (Nat × Nat))
    (hloop : LoopFree edgeList) (faceList : List Tri) (hnd : faceList.Nodup) (coords : List (K × K)) (center : K × K)
    (trajectories : List (List Nat)) (mask : List Nat) (bits : Nat → Nat → Bool) (trainO testO : String)
    (train test : List (Cochain R Nat))
    (h : loadOceanDataset lib toRow edgeList faceList coords center trajectories mask bits trainO testO =
      .ok (train, test)) (paths : List (List Nat)) (hpaths : oceanPaths trajectories = .ok paths)
    (hmask : mask.Perm (maskBeforeShuffle paths.length)) :
    ∃ V E faces trainIds testIds, V.Nodup ∧ (∀ v, v ∈ V ↔ ∃ e ∈ edgeList, v = e.1 ∨ v = e.2) ∧
      E.Nodup ∧ (∀ a b, (a, b) ∈ E ↔ a < b ∧ ((a, b) ∈ edgeList ∨ (b, a) ∈ edgeList)) ∧ faces.Perm faceList ∧
      (trainIds ++ testIds).Perm (List.range paths.length) ∧
      (∀ i, i ∈ trainIds ↔ mask[i]? = some 1) ∧ (∀ i, i ∈ testIds ↔ mask[i]? = some 0) ∧
      trainIds.Pairwise (· < ·) ∧ testIds.Pairwise (· < ·) ∧
      List.Forall₂ (fun i c => ∃ path, paths[i]? = some path ∧ OceanSample toRow V E faces coords center trainO path c)
        trainIds train ∧
      List.Forall₂ (fun i c => ∃ path, paths[i]? = some path ∧ OceanSample toRow V E faces coords center testO path c)
        testIds test := by
  obtain ⟨B1, B2, paths', flows, labels, hB, hp, -, hf, hl, hs⟩ := loadOcean_parts h
  rw [hpaths, ok_inj] at hp
  subst hp
  have hlen : flows.length = paths.length := mapE_length hf
  rw [hlen] at hs
  obtain ⟨trainIds, testIds, s1, s2, s3, s4, s5, -, -, s8, s9⟩ := C47_split paths.length mask hmask _ trainO testO train test hs
  obtain ⟨hV, hV2, hE, hE2, -⟩ := C42_arrays edgeList hloop (oceanArrays edgeList).1 (oceanArrays edgeList).2 rfl
  have key : ∀ i o c, i < paths.length →
      oceanCochain lib toRow B1 B2 (oceanArrays edgeList).2.length flows labels bits i o = .ok c →
      ∃ path, paths[i]? = some path ∧ OceanSample toRow (oceanArrays edgeList).1 (oceanArrays edgeList).2
        (faceList.insertionSort fun s t => triLe s t = true) coords center o path c := by
    intro i o c hi hc
    have hget := List.getElem?_eq_getElem hi
    obtain ⟨c0, -, hall⟩ := oceanCochain_ok hlib toRow hloop (sortedFaces_nodup hnd) hB hf hl hget
    have ho : KnownOrientation o := by
      unfold oceanCochain at hc
      obtain ⟨T, hT, -⟩ := bind_eq_ok.mp hc
      exact orient_known hT
    obtain ⟨s, -, e1, e2⟩ := hall o bits ho
    rw [hc, ok_inj] at e1
    subst e1
    exact ⟨_, hget, e2⟩
  have hlt : ∀ i, i ∈ trainIds ∨ i ∈ testIds → i < paths.length := by
    intro i hi
    have : i ∈ trainIds ++ testIds := List.mem_append.mpr hi
    exact List.mem_range.mp (s1.mem_iff.mp this)
  have lift : ∀ (ids : List Nat) (cs : List (Cochain R Nat)) (o : String), (∀ i ∈ ids, i < paths.length) →
      List.Forall₂ (fun i c => oceanCochain lib toRow B1 B2 (oceanArrays edgeList).2.length flows labels bits i o = .ok c)
        ids cs →
      List.Forall₂ (fun i c => ∃ path, paths[i]? = some path ∧ OceanSample toRow (oceanArrays edgeList).1
        (oceanArrays edgeList).2 (faceList.insertionSort fun s t => triLe s t = true) coords center o path c) ids cs := by
    intro ids cs o hids hF
    induction hF with
    | nil => exact .nil
    | cons hic _ ih => exact .cons (key _ o _ (hids _ (by simp)) hic) (ih fun i hi => hids i (by simp [hi]))
  exact ⟨_, _, _, trainIds, testIds, hV, hV2, hE, hE2, List.perm_insertionSort _ faceList, s1, s4, s5, s2, s3,
    lift _ _ _ (fun i hi => hlt i (.inl hi)) s8, lift _ _ _ (fun i hi => hlt i (.inr hi)) s9⟩

/-- **C84** When the ocean dataset can be made: every trajectory follows edges, the corners of every face ascend and its
sides are edges, and no path has its ends in line with the centre. Then the number of paths decides: without any path
the result is a `ValueError`, with one to 100 paths an `IndexError` from a line that only prints, with more a dataset. -/
theorem C84_ocean_succeeds (lib : SparseLib) (hlib : lib.Correct) (toRow : Int → R) (edgeList : List (Nat × Nat))
    (hloop : LoopFree edgeList) (faceList : List Tri) (hnd : faceList.Nodup)
    (hfaces : ∀ t ∈ faceList, t.1 < t.2.1 ∧ t.2.1 < t.2.2 ∧
      ∀ u ∈ t.corners, ∀ v ∈ t.corners, u ≠ v → (u, v) ∈ edgeList ∨ (v, u) ∈ edgeList)
    (coords : List (K × K)) (center : K × K) (trajectories : List (List Nat))
    (hal : ∀ t ∈ trajectories, AlongEdges edgeList t) :
    ∃ paths, oceanPaths trajectories = .ok paths ∧
      ((∀ path ∈ paths, ∃ a b p q, path.head? = some a ∧ path.getLast? = some b ∧ coords[a]? = some p ∧
        coords[b]? = some q ∧ turn center p q ≠ 0) →
      ∀ (mask : List Nat), mask.Perm (maskBeforeShuffle paths.length) →
      ∀ (bits : Nat → Nat → Bool) (trainO testO : String), KnownOrientation trainO → KnownOrientation testO →
        (paths.length = 0 →
          loadOceanDataset lib toRow edgeList faceList coords center trajectories mask bits trainO testO = .error .value) ∧
        (0 < paths.length → paths.length ≤ 100 →
          loadOceanDataset lib toRow edgeList faceList coords center trajectories mask bits trainO testO = .error .index) ∧
        (100 < paths.length → ∃ train test,
          loadOceanDataset lib toRow edgeList faceList coords center trajectories mask bits trainO testO =
            .ok (train, test))) := by
  obtain ⟨paths, hp, -, hpp⟩ := C61_paths edgeList hloop trajectories hal
  refine ⟨paths, hp, fun hends mask hmask bits trainO testO ho1 ho2 => ?_⟩
  obtain ⟨hmlen, -⟩ := C47_mask _ mask hmask
  obtain ⟨B1, B2, hB⟩ := C41_ocean_matrices_succeed edgeList (oceanArrays edgeList).1 (oceanArrays edgeList).2 rfl
    (faceList.insertionSort fun s t => triLe s t = true)
    (fun t ht => hfaces t ((List.perm_insertionSort _ faceList).mem_iff.mp ht))
  obtain ⟨flows, hf⟩ := mapE_exists (f := fun p => pathToFlow p (edgeNumbers (oceanArrays edgeList).2)
    (oceanArrays edgeList).2.length) (l := paths) (fun p hp =>
      (C42_accepted_walks edgeList (oceanArrays edgeList).1 (oceanArrays edgeList).2 rfl p).1.mpr (hpp p hp).2.1)
  obtain ⟨labels, hl⟩ := mapE_exists (f := fun p => extractLabel p coords center) (l := paths) (fun path hp => by
    obtain ⟨a, b, p, q, e1, e2, e3, e4, e5⟩ := hends path hp
    obtain ⟨k1, k2, -, -⟩ := C61_classes path coords center p q a b e1 e2 e3 e4
    rcases lt_or_gt_of_ne e5 with h | h
    · exact ⟨0, k1.mpr h⟩
    · exact ⟨1, k2.mpr h⟩)
  have hlen1 : flows.length = paths.length := mapE_length hf
  have hlen2 : labels.length = paths.length := mapE_length hl
  have heq := loadOcean_eq hlib (toRow := toRow) hloop hnd hB hp hf hl hmlen bits trainO testO
  rw [heq]
  refine ⟨?_, ?_, ?_⟩
  · intro h0
    rw [if_pos (List.length_eq_zero_iff.mp h0)]
  · intro h0 h1
    have hne : paths ≠ [] := by
      rintro rfl
      simp at h0
    have hg : getAt labels 100 = .error .index := by
      unfold getAt
      rw [List.getElem?_eq_none (by omega)]
    rw [if_neg hne, hg]
    rfl
  · intro h1
    have hne : paths ≠ [] := by
      rintro rfl
      simp at h1
    rw [if_neg hne, getAt_eq_ok.mpr (List.getElem?_eq_getElem (by omega : 100 < labels.length)), ok_bind, hlen1]
    obtain ⟨r, hr⟩ := C47_split_succeeds paths.length mask hmask
      (oceanCochain lib toRow B1 B2 (oceanArrays edgeList).2.length flows labels bits) trainO testO (by
      intro i hi
      obtain ⟨c0, -, hall⟩ := oceanCochain_ok hlib toRow hloop (sortedFaces_nodup hnd) hB hf hl
        (List.getElem?_eq_getElem hi)
      obtain ⟨s, -, e1, -⟩ := hall trainO bits ho1
      obtain ⟨s', -, e2, -⟩ := hall testO bits ho2
      exact ⟨⟨_, e1⟩, _, e2⟩)
    exact ⟨r.1, r.2, hr⟩

/-- **C84** End to end for the ocean dataset: whatever orientations are chosen and drawn, the dataset can be made, and a
network that is blind to orientations and works on every test path alone makes the same predictions over the
validation loader, for every batch size. -/
theorem C84_ocean_predictions [Field 𝕜] [CharZero 𝕜] [Module 𝕜 R] (lib : SparseLib) (hlib : lib.Correct) (toRow : Int → R)
    (edgeList : List (Nat × Nat)) (hloop : LoopFree edgeList) (faceList : List Tri) (hnd : faceList.Nodup)
    (coords : List (K × K)) (center : K × K) (trajectories : List (List Nat)) (mask : List Nat)
    (bits : Nat → Nat → Bool) (trainO testO : String) (train test : List (Cochain R Nat))
    (h : loadOceanDataset lib toRow edgeList faceList coords center trajectories mask bits trainO testO =
      .ok (train, test)) (paths : List (List Nat)) (hpaths : oceanPaths trajectories = .ok paths)
    (hmask : mask.Perm (maskBeforeShuffle paths.length))
    (net : OrientNet R) (hnet : net.Blind) (preds : List R)
    (hp : List.Forall₂ (fun c p => (fromCochainList [c] >>= net.forward 𝕜) = .ok [p]) test preds)
    (bits' : Nat → Nat → Bool) (trainO' testO' : String) (ho1 : KnownOrientation trainO') (ho2 : KnownOrientation testO') :
    ∃ train' test', loadOceanDataset lib toRow edgeList faceList coords center trajectories mask bits' trainO' testO' =
        .ok (train', test') ∧
      ∀ b, 0 < b →
        (cochainLoader (oceanDataset train' test') "valid" none b >>= infer (net.forward 𝕜)) = .ok preds := by
  obtain ⟨B1, B2, paths', flows, labels, hB, hp', hgt, hf, hl, hs⟩ := loadOcean_parts h
  rw [hpaths, ok_inj] at hp'
  subst hp'
  obtain ⟨hmlen, -, -, -, -, hcount⟩ := C47_mask _ mask hmask
  have hlen1 : flows.length = paths.length := mapE_length hf
  have hlen2 : labels.length = paths.length := mapE_length hl
  have hbuild := fun i (hi : i < paths.length) => oceanCochain_ok hlib toRow hloop (sortedFaces_nodup hnd) hB hf hl
    (List.getElem?_eq_getElem hi)
  obtain ⟨⟨train', test'⟩, hr⟩ := C47_split_succeeds paths.length mask hmask
    (oceanCochain lib toRow B1 B2 (oceanArrays edgeList).2.length flows labels bits') trainO' testO' (by
      intro i hi
      obtain ⟨c0, -, hall⟩ := hbuild i hi
      obtain ⟨s, -, e1, -⟩ := hall trainO' bits' ho1
      obtain ⟨s', -, e2, -⟩ := hall testO' bits' ho2
      exact ⟨⟨_, e1⟩, _, e2⟩)
  have hne : paths ≠ [] := by
    rintro rfl
    simp at hgt
  rw [hlen1] at hs
  obtain ⟨ids1, ids, s1, -, s3, -, s5, -, s7, -, s9⟩ := C47_split paths.length mask hmask _ trainO testO train test hs
  obtain ⟨ids1', ids', -, -, s3', -, s5', -, -, -, s9'⟩ := C47_split paths.length mask hmask _ trainO' testO' train' test' hr
  have hids : ids' = ids := by
    refine List.Perm.eq_of_pairwise (fun a b _ _ h1 h2 => absurd h1 (by omega)) s3' s3 ?_
    rw [List.perm_ext_iff_of_nodup (s3'.imp (by omega)) (s3.imp (by omega))]
    intro i
    rw [s5', s5]
  subst hids
  have hlt : ∀ i ∈ ids', i < paths.length := fun i hi =>
    List.mem_range.mp (s1.mem_iff.mp (List.mem_append_right _ hi))
  have hre : (∀ c ∈ test, EdgeOnly c) ∧ List.Forall₂ Reoriented test test' := by
    clear s1 s3 s5 s7 s3' s5' hp hr h hs
    induction s9 generalizing test' with
    | nil =>
      cases s9'
      exact ⟨by simp, .nil⟩
    | @cons i c ids cs hic _ ih =>
      cases s9' with
      | @cons _ c' _ cs' hic' hrest =>
      obtain ⟨i1, i2⟩ := ih cs' hrest fun i hi => hlt i (by simp [hi])
      obtain ⟨c0, he, hall⟩ := hbuild i (hlt i (by simp))
      have ho : KnownOrientation testO := by
        have hic := hic
        unfold oceanCochain at hic
        obtain ⟨T, hT, -⟩ := bind_eq_ok.mp hic
        exact orient_known hT
      obtain ⟨s, hs1, e1, -⟩ := hall testO bits ho
      obtain ⟨s', hs2, e2, -⟩ := hall testO' bits' ho2
      rw [hic, ok_inj] at e1
      rw [hic', ok_inj] at e2
      subst e1 e2
      refine ⟨?_, .cons (reoriented_pair hs1 hs2 c0) i2⟩
      intro c hc
      rcases List.mem_cons.mp hc with rfl | hc
      · exact he
      · exact i1 c hc
  refine ⟨train', test', ?_, fun b hb => ?_⟩
  · rw [loadOcean_eq hlib hloop hnd hB hpaths hf hl hmlen, if_neg hne,
      getAt_eq_ok.mpr (List.getElem?_eq_getElem (by omega : 100 < labels.length)), ok_bind, hlen1, hr]
  · refine valid_inference net hnet (train := train') ⟨rfl, rfl, rfl, rfl⟩ ?_ hre.1 hre.2 hp hb
    rintro rfl
    cases s9
    simp at s7
    omega

end

/-! ### Examples -/

section Examples

/-- A strip of three triangles. -/
def shore : List (Nat × Nat) := [(1, 0), (1, 2), (0, 2), (2, 3), (1, 3), (3, 4), (2, 4)]

def shoreFaces : List Tri := [(2, 3, 4), (0, 1, 2), (1, 2, 3)]

def shoreCoords : List (Int × Int) := [(-3, 0), (-1, 1), (0, -1), (1, 1), (3, 1)]

/-- 101 paths of two kinds, and one that is too short. -/
def drifts : List (List Nat) := List.replicate 100 [0, 1, 2, 3, 4] ++ [[4, 3, 4, 2, 1, 3, 2, 0], [0, 1]]

theorem shore_along : ∀ t ∈ drifts, AlongEdges shore t := by
  have h : ∀ t ∈ [[0, 1, 2, 3, 4], [4, 3, 4, 2, 1, 3, 2, 0], [0, 1]], ∀ q ∈ moves t, q ∈ shore ∨ q.swap ∈ shore := by
    decide
  intro t ht u v hq
  refine h t ?_ (u, v) hq
  simp only [drifts, List.mem_append, List.mem_replicate] at ht
  rcases ht with ⟨-, rfl⟩ | ht
  · simp
  · exact List.mem_cons_of_mem _ ht

theorem drifts_paths : oceanPaths drifts = .ok (List.replicate 100 [0, 1, 2, 3, 4] ++ [[4, 2, 1, 3, 2, 0]]) := by
  decide +kernel

/-- All hypotheses are met: the dataset can be made for every shuffle of the mask and all orientations. -/
example (mask : List Nat) (hm : mask.Perm (maskBeforeShuffle 101)) (bits : Nat → Nat → Bool) (trainO testO : String)
    (h1 : KnownOrientation trainO) (h2 : KnownOrientation testO) : ∃ train test,
    loadOceanDataset rowMajorLib (fun k => (k : ℚ)) shore shoreFaces shoreCoords (0, 0) drifts mask bits trainO testO =
      .ok (train, test) := by
  obtain ⟨paths, hp, h⟩ := C84_ocean_succeeds rowMajorLib rowMajorLib_correct (fun k => (k : ℚ)) shore (by unfold LoopFree; decide)
    shoreFaces (by decide) (by decide) shoreCoords (0, 0) drifts shore_along
  rw [drifts_paths, ok_inj] at hp
  subst hp
  refine (h ?_ mask (by simpa using hm) bits trainO testO h1 h2).2.2 (by simp)
  intro path hpath
  simp only [List.mem_append, List.mem_replicate, List.mem_singleton] at hpath
  rcases hpath with ⟨-, rfl⟩ | rfl
  · exact ⟨0, 4, (-3, 0), (3, 1), rfl, rfl, rfl, rfl, by decide⟩
  · exact ⟨4, 0, (3, 1), (-3, 0), rfl, rfl, rfl, rfl, by decide⟩

/-- The samples of the two kinds of paths. -/
def shoreSamples (orient : String) (bits : Nat → Nat → Bool) : Py (List (Cochain ℚ Nat)) := do
  let B ← incidenceMatrices (oceanArrays shore).1 (oceanArrays shore).2
    (shoreFaces.insertionSort fun s t => triLe s t = true) (edgeNumbers (oceanArrays shore).2)
  mapE (fun i => oceanCochain rowMajorLib (fun k => (k : ℚ)) B.1 B.2 7
    [[0, 1, 1, 0, 1, 0, 1], [-1, 0, -1, 1, -1, -1, 0]] [0, 1] bits i orient) [0, 1]

/-- The edges of the strip with a path; `u` and `l` are the orientations of the adjacencies. -/
def shoreItem (x : List ℚ) (y : Nat) (u l : List Int) : Cochain ℚ Nat where
  dim := 1
  x := some x
  upperIndex := some [(1, 0), (0, 1), (2, 0), (0, 2), (2, 1), (1, 2), (3, 2), (2, 3), (4, 2), (2, 4), (4, 3), (3, 4),
    (5, 4), (4, 5), (6, 4), (4, 6), (6, 5), (5, 6)]
  lowerIndex := some [(1, 0), (0, 1), (2, 0), (0, 2), (2, 1), (1, 2), (3, 1), (1, 3), (3, 2), (2, 3), (4, 0), (0, 4),
    (4, 2), (2, 4), (4, 3), (3, 4), (5, 0), (0, 5), (5, 2), (2, 5), (5, 4), (4, 5), (6, 3), (3, 6), (6, 4), (4, 6),
    (6, 5), (5, 6)]
  upperOrient := some u
  lowerOrient := some l
  y := some [y]

def shoreDefault : List (Cochain ℚ Nat) :=
  [shoreItem [0, 1, 1, 0, 1, 0, 1] 0 [-1, -1, -1, -1, 1, 1, -1, -1, 1, 1, -1, -1, -1, -1, 1, 1, -1, -1]
    [1, 1, 1, 1, -1, -1, -1, -1, 1, 1, -1, -1, -1, -1, 1, 1, -1, -1, -1, -1, 1, 1, -1, -1, -1, -1, 1, 1],
   shoreItem [-1, 0, -1, 1, -1, -1, 0] 1 [-1, -1, -1, -1, 1, 1, -1, -1, 1, 1, -1, -1, -1, -1, 1, 1, -1, -1]
    [1, 1, 1, 1, -1, -1, -1, -1, 1, 1, -1, -1, -1, -1, 1, 1, -1, -1, -1, -1, 1, 1, -1, -1, -1, -1, 1, 1]]

def shoreRandom : List (Cochain ℚ Nat) :=
  [shoreItem [0, -1, 1, 0, 1, 0, 1] 0 [1, 1, -1, -1, -1, -1, 1, 1, 1, 1, 1, 1, 1, 1, 1, 1, 1, 1]
    [-1, -1, 1, 1, 1, 1, -1, -1, -1, -1, -1, -1, -1, -1, -1, -1, 1, 1, 1, 1, -1, -1, 1, 1, -1, -1, -1, -1],
   shoreItem [1, 0, 1, 1, 1, -1, 0] 1 [1, 1, -1, -1, -1, -1, 1, 1, 1, 1, 1, 1, 1, 1, 1, 1, 1, 1]
    [-1, -1, 1, 1, 1, 1, -1, -1, -1, -1, -1, -1, -1, -1, -1, -1, 1, 1, 1, 1, -1, -1, 1, 1, -1, -1, -1, -1]]

example : shoreSamples "default" (fun _ _ => true) = .ok shoreDefault := by decide +kernel

example : shoreSamples "random" (fun i k => (i + k) % 2 == 0) = .ok shoreRandom := by decide +kernel

/-- The predictions of each path alone with default orientations, and of both in a batch with random ones. -/
example : mapE (fun c => fromCochainList [c] >>= orientQ.forward ℚ) shoreDefault =
      .ok [[88708314962625745 / 177147], [10493499691062785 / 59049]] ∧
    (cochainLoader (oceanDataset [] shoreRandom) "valid" none 2 >>= infer (orientQ.forward ℚ)) =
      .ok [88708314962625745 / 177147, 10493499691062785 / 59049] := by
  decide +kernel

end Examples

end Verif
