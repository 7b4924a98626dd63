import Verif.Spec.FlowRects
import Verif.Props.FlowDatasets

/-! # The rectangles of the flow dataset (C125) -/

namespace Verif

variable {K P D R : Type}

theorem inside_iff [LinearOrder K] (r : Rect K) (x : K × K) : isInsideRectangle r x = true ↔
    (r.lo.1 ≤ x.1 ∧ x.1 ≤ r.hi.1) ∧ r.lo.2 ≤ x.2 ∧ x.2 ≤ r.hi.2 := by
  simp [isInsideRectangle]

theorem apart_left [LinearOrder K] {r s : Rect K} (h : r.hi.1 < s.lo.1 ∨ s.hi.1 < r.lo.1 ∨ r.hi.2 < s.lo.2 ∨ s.hi.2 < r.lo.2) :
    Apart (isInsideRectangle r) (isInsideRectangle s) := by
  rintro ⟨x, y⟩ ⟨h1, h2⟩
  rw [inside_iff] at h1 h2
  obtain ⟨⟨a1, a2⟩, a3, a4⟩ := h1
  obtain ⟨⟨b1, b2⟩, b3, b4⟩ := h2
  rcases h with h | h | h | h
  · exact absurd (b1.trans a2) (not_le.mpr h)
  · exact absurd (a1.trans b2) (not_le.mpr h)
  · exact absurd (b3.trans a4) (not_le.mpr h)
  · exact absurd (a3.trans b4) (not_le.mpr h)

theorem touch_corner [LinearOrder K] {r s : Rect K} (h1 : r.hi = s.lo) (hr1 : r.lo.1 ≤ r.hi.1) (hr2 : r.lo.2 ≤ r.hi.2)
    (hs1 : s.lo.1 ≤ s.hi.1) (hs2 : s.lo.2 ≤ s.hi.2) : TouchAt (isInsideRectangle r) (isInsideRectangle s) r.hi := by
  rintro ⟨x, y⟩
  rw [inside_iff, inside_iff, ← h1]
  rw [← h1] at hs1 hs2
  constructor
  · rintro ⟨⟨⟨-, a2⟩, -, a4⟩, ⟨b1, -⟩, b3, -⟩
    exact Prod.ext (le_antisymm a2 b1) (le_antisymm a4 b3)
  · intro e
    rw [e]
    exact ⟨⟨⟨hr1, le_rfl⟩, hr2, le_rfl⟩, ⟨le_rfl, hs1⟩, le_rfl, hs2⟩

/-- **C125** The regions: start, end and the two checkpoints have no point in common; neither have the two holes, nor a hole
and the start, the end or the checkpoint on the other side; but each hole touches a checkpoint, in one corner. -/
theorem C125_regions [LinearOrder K] (m : Marks K) (hm : m.Increasing) :
    [(flowRects m).start, (flowRects m).stop, (flowRects m).bot, (flowRects m).top].Pairwise Apart ∧
    (∀ region ∈ [(flowRects m).start, (flowRects m).stop, (flowRects m).top, (flowRects m).hole2],
      Apart (flowRects m).hole1 region) ∧
    (∀ region ∈ [(flowRects m).start, (flowRects m).stop, (flowRects m).bot, (flowRects m).hole1],
      Apart (flowRects m).hole2 region) ∧
    TouchAt (flowRects m).bot (flowRects m).hole1 (m.m2, m.m2) ∧
    TouchAt (flowRects m).hole2 (flowRects m).top (m.m8, m.m8) := by
  obtain ⟨h1, h2, h3, h4, h5⟩ := hm
  have h24 := h1.trans h2
  have h26 := h2.trans h3
  have h28 := h26.trans h4
  have h48 := h3.trans h4
  have k (r s : Rect K) (h : r.hi.1 < s.lo.1 ∨ s.hi.1 < r.lo.1 ∨ r.hi.2 < s.lo.2 ∨ s.hi.2 < r.lo.2) :
    Apart (isInsideRectangle r) (isInsideRectangle s) := apart_left h
  refine ⟨?_, ?_, ?_, ?_, ?_⟩
  · simp only [List.pairwise_cons, List.mem_cons, List.not_mem_nil, or_false, forall_eq_or_imp, forall_eq, List.Pairwise.nil,
      and_true, false_implies, implies_true]
    exact ⟨⟨k _ _ (.inl h28), k _ _ (.inr (.inr (.inr h28))), k _ _ (.inl h28)⟩,
      ⟨k _ _ (.inr (.inl h28)), k _ _ (.inr (.inr (.inl h28)))⟩, k _ _ (.inl h28)⟩
  · simp only [List.mem_cons, List.not_mem_nil, or_false, forall_eq_or_imp, forall_eq]
    exact ⟨k _ _ (.inr (.inr (.inl h48))), k _ _ (.inl h48), k _ _ (.inl h48), k _ _ (.inl h3)⟩
  · simp only [List.mem_cons, List.not_mem_nil, or_false, forall_eq_or_imp, forall_eq]
    exact ⟨k _ _ (.inr (.inl h26)), k _ _ (.inr (.inr (.inr h26))), k _ _ (.inr (.inl h26)), k _ _ (.inr (.inl h3))⟩
  · exact touch_corner (r := botCkptRect m) (s := hole1Rect m) rfl h1.le h1.le h2.le h2.le
  · exact touch_corner (r := hole2Rect m) (s := topCkptRect m) rfl h4.le h4.le h5.le h5.le

/-- **C125** The picture is symmetric: exchanging the coordinates exchanges start and end and keeps the checkpoints and the
holes. -/
theorem C125_symmetric [LinearOrder K] (m : Marks K) (p : K × K) :
    (flowRects m).start p.swap = (flowRects m).stop p ∧ (flowRects m).bot p.swap = (flowRects m).bot p ∧
    (flowRects m).top p.swap = (flowRects m).top p ∧ (flowRects m).hole1 p.swap = (flowRects m).hole1 p ∧
    (flowRects m).hole2 p.swap = (flowRects m).hole2 p := by
  refine ⟨?_, ?_, ?_, ?_, ?_⟩ <;> exact Bool.and_comm _ _

/-- **C125** The vertices drawn for an attempt at a trajectory are three different ones, for both classes and whatever the
random numbers. -/
theorem C125_three_vertices [LinearOrder K] (m : Marks K) (hm : m.Increasing) (points : List (K × K)) (classId r s t : Nat)
    (i j k : Nat) (hi : samplePoint points (flowRects m).start r = .ok i) (hj : samplePoint points (flowRects m).stop s = .ok j)
    (hk : samplePoint points ((flowRects m).ckpt classId) t = .ok k) : i ≠ j ∧ i ≠ k ∧ j ≠ k := by
  obtain ⟨a, a1, a2⟩ := samplePoint_done hi
  obtain ⟨b, b1, b2⟩ := samplePoint_done hj
  obtain ⟨c, c1, c2⟩ := samplePoint_done hk
  have hp := (C125_regions m hm).1
  simp only [List.pairwise_cons, List.mem_cons, List.not_mem_nil, or_false, forall_eq_or_imp, forall_eq, List.Pairwise.nil,
    and_true, false_implies, implies_true] at hp
  obtain ⟨⟨p1, p2, p3⟩, ⟨p4, p5⟩, -⟩ := hp
  have hcs : Apart (flowRects m).start ((flowRects m).ckpt classId) ∧ Apart (flowRects m).stop ((flowRects m).ckpt classId) := by
    unfold FlowRegions.ckpt
    split
    · exact ⟨p2, p4⟩
    · exact ⟨p3, p5⟩
  refine ⟨?_, ?_, ?_⟩
  · rintro rfl
    rw [a1, Option.some.injEq] at b1
    exact p1 a ⟨a2, b1 ▸ b2⟩
  · rintro rfl
    rw [a1, Option.some.injEq] at c1
    exact hcs.1 a ⟨a2, c1 ▸ c2⟩
  · rintro rfl
    rw [b1, Option.some.injEq] at c1
    exact hcs.2 b ⟨b2, c1 ▸ c2⟩

/-- A sample between regions that are apart is not zero. -/
theorem FlowSample.notZero [AddCommGroup R] {rg : FlowRegions P} (ha : Apart rg.start rg.stop) {toRow : Int → R}
    (h1 : toRow 1 ≠ 0) (h2 : toRow (-1) ≠ 0) {points : List P} {triangles : List Tri} {edges : List (Nat × Nat)}
    (hs : SidesOf triangles edges) {o : String} {n i : Nat} {c : Cochain R Nat}
    (h : FlowSample rg toRow points triangles edges o n i c) : ∃ rows, c.x = some rows ∧ ∃ r ∈ rows, r ≠ 0 := by
  obtain ⟨s, path, hsig, -, hp, hitem⟩ := h
  refine ⟨_, hitem.x, ?_⟩
  obtain ⟨u, p, hu, hup, hup'⟩ := hp.starts
  obtain ⟨w, q, hw, hwq, hwq'⟩ := hp.stops
  match path, hu, hw, hp with
  | [a], hu, hw, _ =>
    simp only [List.head?_cons, Option.some.injEq, List.getLast?_singleton] at hu hw
    subst hu hw
    rw [hup, Option.some.injEq] at hwq
    subst hwq
    exact absurd ⟨hup', hwq'⟩ (ha p)
  | a :: b :: rest, _, _, hp =>
    have hmv : (a, b) ∈ moves (a :: b :: rest) := by simp [moves]
    have hab : a ≠ b := by
      have := hp.nodup
      simp only [List.nodup_cons, List.mem_cons, not_or] at this
      exact this.1.1
    obtain ⟨t, ht, hta, htb⟩ := hp.along a b hmv
    obtain ⟨e, he, hq⟩ : ∃ e ∈ edges, e = (a, b) ∨ e = (b, a) := by
      rcases Nat.lt_or_gt_of_ne hab with hlt | hlt
      · exact ⟨_, (hs.mem a b).mpr ⟨hlt, t, ht, hta, htb⟩, .inl rfl⟩
      · exact ⟨_, (hs.mem b a).mpr ⟨hlt, t, ht, htb, hta⟩, .inr rfl⟩
    obtain ⟨k, hk⟩ := List.getElem?_of_mem he
    refine ⟨_, List.mem_map_of_mem (a := (e, k)) (List.mem_zipIdx_iff_getElem?.mpr hk), ?_⟩
    have hval : pathSign (a :: b :: rest) e = 1 ∨ pathSign (a :: b :: rest) e = -1 := by
      unfold pathSign
      split
      · exact .inl rfl
      · rename_i hn
        rcases hq with rfl | rfl
        · exact absurd hmv hn
        · rw [if_pos (by exact hmv)]
          exact .inr rfl
    have hrow : toRow (pathSign (a :: b :: rest) e) ≠ 0 := by
      rcases hval with e | e <;> rw [e] <;> assumption
    dsimp only
    rcases hsig k with e | e <;> rw [e] <;> simpa using hrow
  | [], hu, _, _ => cases hu

/-- **C125** The samples of the flow dataset, with its rectangles: no remaining point is in a hole, and no sample is the zero
flow, in either split and whatever the points, the triangulation, the orientations and the random numbers. -/
theorem C125_no_zero_flows [LinearOrder K] [LinearOrder D] [AddCommGroup R] (lib : SparseLib) (hlib : lib.Correct)
    (m : Marks K) (hm : m.Increasing) (dist : K × K → K × K → D) (toRow : Int → R) (h1 : toRow 1 ≠ 0) (h2 : toRow (-1) ≠ 0)
    (points : List (K × K)) (simplices : List Tri) (ht : Triangulates points simplices)
    (hdiff : DifferentTriangles simplices) (numTrain numTest : Nat) (trainO testO : String) (trainD testD : SampleDraws)
    (train test : List (Cochain R Nat)) (G : FlowGraph)
    (h : loadFlowDataset lib (flowRects m) dist toRow points simplices numTrain numTest trainO testO trainD testD =
      .ok (train, test, G)) :
    (∀ r, flowTriangulation (flowRects m) points simplices = .ok r →
      ∀ p ∈ r.1, (flowRects m).hole1 p = false ∧ (flowRects m).hole2 p = false) ∧
    ∀ c ∈ train ++ test, ∃ rows, c.x = some rows ∧ ∃ r ∈ rows, r ≠ 0 := by
  have ha : Apart (flowRects m).start (flowRects m).stop := by
    have hp := (C125_regions m hm).1
    rw [List.pairwise_cons] at hp
    exact hp.1 _ (by simp)
  constructor
  · intro r hr
    have hex := flowTriangulation_some ht hr
    obtain ⟨points', triangles', ρ, e, -, wh⟩ := flowTriangulation_ok ht hex
    rw [e, ok_inj] at hr
    subst hr
    intro p hp
    obtain ⟨i, hi⟩ := List.getElem?_of_mem hp
    obtain ⟨t, t1, t2, t3, v, hv, rfl⟩ := wh.all i (lt_of_get hi)
    rw [wh.place t t1 t2 t3 v hv] at hi
    exact ⟨t2 v hv p hi, t3 v hv p hi⟩
  · obtain ⟨points', triangles', ρ, edges, wh, hs, a1, a2, b1, b2⟩ := C84_flow_items lib hlib (flowRects m) dist toRow points
      simplices ht hdiff numTrain numTest trainO testO trainD testD train test G h
    intro c hc
    rcases List.mem_append.mp hc with hc | hc
    · obtain ⟨i, hi⟩ := List.getElem?_of_mem hc
      exact (a2 i c hi).notZero ha h1 h2 hs
    · obtain ⟨i, hi⟩ := List.getElem?_of_mem hc
      exact (b2 i c hi).notZero ha h1 h2 hs

section Examples

/-- Tenths. -/
def tenths : Marks Nat := ⟨0, 2, 4, 6, 8, 10⟩

theorem tenths_increasing : tenths.Increasing := by unfold Marks.Increasing; decide

/-- A point in every region, and one in the middle. -/
def square : List (Nat × Nat) := [(1, 9), (9, 1), (1, 1), (9, 9), (5, 5), (3, 3), (7, 7)]

/-- Four triangles around the middle, and two that meet a hole. -/
def squareTriangles : List Tri := [(2, 1, 4), (2, 0, 4), (3, 0, 4), (3, 1, 4), (5, 2, 4), (6, 3, 4)]

theorem square_triangulates : Triangulates square squareTriangles := ⟨by decide, by decide, by decide⟩

def squareGap (p q : Nat × Nat) : Nat := gap p.1 q.1 * gap p.1 q.1 + gap p.2 q.2 * gap p.2 q.2

theorem square_different : DifferentTriangles squareTriangles := by
  rw [differentTriangles_iff]
  have h : squareTriangles.Pairwise fun s t => ∃ v ∈ s.corners, v ∉ t.corners := by
    simp only [squareTriangles, Tri.corners]
    decide
  refine h.imp ?_
  rintro s t ⟨v, h1, h2⟩ g
  exact h2 ((g v).mp h1)

/-- The square without the holes. -/
theorem square_with_holes : flowTriangulation (flowRects tenths) square squareTriangles =
    .ok ([(1, 9), (9, 1), (1, 1), (9, 9), (5, 5)], [(2, 1, 4), (2, 0, 4), (3, 0, 4), (3, 1, 4)]) := by
  have e1 : createHole square squareTriangles (flowRects tenths).hole1 =
      .ok ([(1, 9), (9, 1), (1, 1), (9, 9), (5, 5), (7, 7)], [(2, 1, 4), (2, 0, 4), (3, 0, 4), (3, 1, 4), (5, 3, 4)]) := by
    decide +kernel
  have e2 : createHole [(1, 9), (9, 1), (1, 1), (9, 9), (5, 5), (7, 7)]
      [(2, 1, 4), (2, 0, 4), (3, 0, 4), (3, 1, 4), (5, 3, 4)] (flowRects tenths).hole2 =
      .ok ([(1, 9), (9, 1), (1, 1), (9, 9), (5, 5)], [(2, 1, 4), (2, 0, 4), (3, 0, 4), (3, 1, 4)]) := by
    decide +kernel
  unfold flowTriangulation
  rw [checkCovered_ok square_triangulates, ok_bind, e1, ok_bind]
  have c1 : checkCovered [((1, 9) : Nat × Nat), (9, 1), (1, 1), (9, 9), (5, 5), (7, 7)]
    [(2, 1, 4), (2, 0, 4), (3, 0, 4), (3, 1, 4), (5, 3, 4)] = .ok () := by decide +kernel
  have c2 : checkCovered [((1, 9) : Nat × Nat), (9, 1), (1, 1), (9, 9), (5, 5)]
    [(2, 1, 4), (2, 0, 4), (3, 0, 4), (3, 1, 4)] = .ok () := by decide +kernel
  have c3 : checkExtremes [((1, 9) : Nat × Nat), (9, 1), (1, 1), (9, 9), (5, 5)]
    [(2, 1, 4), (2, 0, 4), (3, 0, 4), (3, 1, 4)] = .ok () := by decide +kernel
  simp only [c1, ok_bind, e2, c2, c3]
  rfl

/-- The flows from the start to the end, of class 0 past (1, 1) and of class 1 past (9, 9), around the holes. -/
example : (do
      let r ← loadFlowDataset rowMajorLib (flowRects tenths) squareGap (fun k => (k : ℚ)) square squareTriangles 2 2
        "default" "random" meshDraws meshDraws
      return ((r.1 ++ r.2.1).map fun c => (c.x, c.y)) : Py _) =
    .ok [(some [-1, 0, 0, 1, 0, 0, 0, 0], some [0]), (some [0, 0, 0, 0, 0, 1, 0, -1], some [1]),
      (some [-1, 0, 0, -1, 0, 0, 0, 0], some [0]), (some [0, 0, 0, 0, 0, 1, 0, -1], some [1])] := by
  unfold loadFlowDataset
  rw [square_with_holes, ok_bind]
  decide +kernel

/-- Regions for the end and the start that are not apart: a flow that is zero. -/
example : (do
      let r ← loadFlowDataset rowMajorLib { meshRegions with stop := meshRegions.start } gap (fun k => (k : ℚ)) mesh
        meshTriangles 2 0 "default" "default" meshDraws meshDraws
      return (r.1.map Cochain.x) : Py _) = .ok [some [0, 0, 0, 0, 0], some [0, 0, 0, 0, 0]] := by
  unfold loadFlowDataset
  rw [mesh_with_holes _ rfl rfl, ok_bind]
  decide +kernel

/-- Both regions of the corner: a hole and a checkpoint. -/
example : (flowRects tenths).bot (2, 2) = true ∧ (flowRects tenths).hole1 (2, 2) = true := by decide

/-- The three vertices of an attempt of class 0. -/
example : samplePoint square (flowRects tenths).start 5 = .ok 0 ∧ samplePoint square (flowRects tenths).stop 3 = .ok 1 ∧
    samplePoint square ((flowRects tenths).ckpt 0) 0 = .ok 2 := by decide +kernel

end Examples

end Verif
