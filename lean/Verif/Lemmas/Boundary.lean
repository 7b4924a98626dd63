import Verif.Lemmas.FlowGraph

/-!
# Lemmas about boundary matrices
-/

namespace Verif

variable {P : Type}

namespace Mat

theorem set_eq_ok {A B : Mat} {i j : Nat} {v : Int} : A.set i j v = .ok B ↔
    (i < A.rows ∧ j < A.cols) ∧ B = { A with entry := fun a b => if a = i ∧ b = j then v else A.entry a b } := by
  unfold Mat.set
  split
  · next h => rw [ok_inj]; exact ⟨fun e => ⟨h, e.symm⟩, fun e => e.2.symm⟩
  · next h => exact ⟨fun e => by simp at e, fun e => absurd e.1 h⟩

theorem dot_eq {A B : Mat} (h : A.cols = B.rows) : A.dot B =
    .ok ⟨A.rows, B.cols, fun i j => ((List.range A.cols).map fun k => A.entry i k * B.entry k j).sum⟩ := by
  unfold Mat.dot
  rw [if_pos h]

end Mat

/-- The entry of the node-edge matrix for an edge with its smaller end first. -/
def nodeEdge (v : Nat) (q : Nat × Nat) : Int := if v = q.2 then 1 else if v = q.1 then -1 else 0

/-- The node-edge matrix that a successful run builds. -/
theorem edgeColumns_done {G : FlowGraph} (h : G.Wf) {n : Nat} {B1 : Mat}
    (hrun : foldE (setEdgeColumn G) (Mat.zeros n G.edges.length) (List.range G.edges.length) = .ok B1) :
    B1.rows = n ∧ B1.cols = G.edges.length ∧
    (∀ q ∈ G.tuples, q.2 < n ∧ q.1 < n) ∧
    ∀ (v e : Nat) (q : Nat × Nat), G.tuples[e]? = some q → B1.entry v e = nodeEdge v q := by
  have key := foldE_done (fun pre (B : Mat) => B.rows = n ∧ B.cols = G.edges.length ∧
      (∀ (e : Nat) (q : Nat × Nat), e ∈ pre → G.tuples[e]? = some q → q.2 < n ∧ q.1 < n) ∧
      (∀ (v e : Nat) (q : Nat × Nat), G.tuples[e]? = some q →
        B.entry v e = if e ∈ pre then nodeEdge v q else 0)) hrun
    ⟨rfl, rfl, by simp, by simp [Mat.zeros]⟩ (by
      rintro pre e post B B' hl ⟨i1, i2, i3, i4⟩ hs
      unfold setEdgeColumn at hs
      obtain ⟨q, hq, hs⟩ := bind_eq_ok.mp hs
      rw [Dict.get_eq_ok, h.e2t] at hq
      obtain ⟨C, hC, hs⟩ := bind_eq_ok.mp hs
      obtain ⟨⟨c1, c2⟩, rfl⟩ := Mat.set_eq_ok.mp hC
      obtain ⟨⟨c3, c4⟩, rfl⟩ := Mat.set_eq_ok.mp hs
      simp only at c3 c4 ⊢
      obtain ⟨e', -, hq'⟩ := List.mem_map.mp (List.mem_of_getElem? hq)
      have hle : q.1 ≤ q.2 := by
        rw [← hq']
        unfold ordered
        simp only
        omega
      rw [Nat.min_eq_left hle] at c1
      rw [Nat.max_eq_right hle] at c3
      rw [Nat.min_eq_left hle, Nat.max_eq_right hle]
      refine ⟨i1, i2, ?_, ?_⟩
      · intro e'' q' he hq''
        rw [List.mem_append, List.mem_singleton] at he
        rcases he with he | rfl
        · exact i3 e'' q' he hq''
        · rw [hq] at hq''
          obtain rfl := Option.some.inj hq''
          rw [i1] at c1 c3
          exact ⟨c3, c1⟩
      · intro v e'' q' hq''
        by_cases he : e'' = e
        · subst he
          rw [hq] at hq''
          obtain rfl := Option.some.inj hq''
          have hpre : e'' ∉ pre := by
            have hnd : (List.range G.edges.length).Nodup := List.nodup_range
            rw [hl, List.nodup_append] at hnd
            intro hm
            exact hnd.2.2 e'' hm e'' (by simp) rfl
          simp only [and_true, List.mem_append, List.mem_singleton, or_true, if_true]
          unfold nodeEdge
          rw [i4 v e'' q hq, if_neg hpre]
        · simp only [he, and_false, if_false, List.mem_append, List.mem_singleton, or_false]
          exact i4 v e'' q' hq'')
  obtain ⟨k1, k2, k3, k4⟩ := key
  have hin : ∀ (e : Nat) (q : Nat × Nat), G.tuples[e]? = some q → e ∈ List.range G.edges.length := by
    intro e q hq
    have := lt_of_get hq
    rw [FlowGraph.tuples_length] at this
    exact List.mem_range.mpr this
  refine ⟨k1, k2, ?_, ?_⟩
  · intro q hq
    obtain ⟨e, he⟩ := List.getElem?_of_mem hq
    exact k3 e q (hin e q he) he
  · intro v e q hq
    rw [k4 v e q hq, if_pos (hin e q hq)]

/-- When all ends are in range, the run succeeds. -/
theorem edgeColumns_ok {G : FlowGraph} (h : G.Wf) {n : Nat} (hn : ∀ q ∈ G.tuples, q.1 < n ∧ q.2 < n) :
    ∃ B1, foldE (setEdgeColumn G) (Mat.zeros n G.edges.length) (List.range G.edges.length) = .ok B1 := by
  obtain ⟨B1, h1, -⟩ := foldE_inv (f := setEdgeColumn G) (l := List.range G.edges.length)
    (s := Mat.zeros n G.edges.length) (fun _ (B : Mat) => B.rows = n ∧ B.cols = G.edges.length) ⟨rfl, rfl⟩ (by
      rintro pre e post B hl ⟨i1, i2⟩
      have he : e < G.tuples.length := by
        rw [FlowGraph.tuples_length, ← List.mem_range, hl]
        simp
      have hq := List.getElem?_eq_getElem he
      obtain ⟨q1, q2⟩ := hn _ (List.mem_of_getElem? hq)
      rw [FlowGraph.tuples_length] at he
      unfold setEdgeColumn
      rw [Dict.get_eq_ok.mpr ((h.e2t e).trans hq), ok_bind]
      unfold Mat.set
      rw [if_pos ⟨by omega, by omega⟩, ok_bind]
      simp only
      rw [if_pos ⟨by omega, by omega⟩]
      exact ⟨_, rfl, i1, i2⟩)
  exact ⟨B1, h1⟩

/-- The orientation of the step from `u` to `v`. -/
def stepSign (u v : Nat) : Int := if u < v then 1 else -1

theorem edgeAndOrientation_ok {G : FlowGraph} (h : G.Wf) {u v : Nat} {r : Nat × Int} :
    edgeAndOrientation G u v = .ok r ↔ G.tuples[r.1]? = some (ordered u v) ∧ r.2 = stepSign u v := by
  unfold edgeAndOrientation stepSign
  rw [bind_eq_ok]
  simp only [h.get, pure_eq_ok, ok_inj]
  constructor
  · rintro ⟨e, h1, rfl⟩; exact ⟨h1, rfl⟩
  · rintro ⟨h1, h2⟩; exact ⟨r.1, h1, by rw [← h2]⟩

/-- The column of a triangle: its three edges, different from each other, each with the sign of the step along
the triangle. -/
structure TriangleColumn (G : FlowGraph) (B2 : Mat) (t : Tri) (i e1 e2 e3 : Nat) : Prop where
  h1 : G.tuples[e1]? = some (ordered t.1 t.2.1)
  h2 : G.tuples[e2]? = some (ordered t.2.1 t.2.2)
  h3 : G.tuples[e3]? = some (ordered t.2.2 t.1)
  d12 : e1 ≠ e2
  d13 : e1 ≠ e3
  d23 : e2 ≠ e3
  s1 : B2.entry e1 i = stepSign t.1 t.2.1
  s2 : B2.entry e2 i = stepSign t.2.1 t.2.2
  s3 : B2.entry e3 i = stepSign t.2.2 t.1
  zero : ∀ k, k ≠ e1 → k ≠ e2 → k ≠ e3 → B2.entry k i = 0

theorem TriangleColumn.distinct {G : FlowGraph} {B2 : Mat} {t : Tri} {i e1 e2 e3 : Nat} (hG : G.Wf)
    (h : TriangleColumn G B2 t i e1 e2 e3) : t.1 ≠ t.2.1 ∧ t.2.1 ≠ t.2.2 ∧ t.2.2 ≠ t.1 := by
  have inj : ∀ e e' : Nat, ∀ q, G.tuples[e]? = some q → G.tuples[e']? = some q → e = e' := by
    intro e e' q h1 h2
    have l1 := lt_of_get h1
    have l2 := lt_of_get h2
    rw [List.getElem?_eq_getElem l1, Option.some.injEq] at h1
    rw [List.getElem?_eq_getElem l2, Option.some.injEq] at h2
    exact (List.Nodup.getElem_inj_iff hG.nodup (hi := l1) (hj := l2)).mp (h1.trans h2.symm)
  refine ⟨?_, ?_, ?_⟩
  · intro e
    refine h.d23 (inj _ _ _ h.h2 ?_)
    rw [h.h3, ordered_comm, e]
  · intro e
    refine h.d13 (inj _ _ _ h.h1 ?_)
    rw [h.h3, ordered_comm, e]
  · intro e
    refine h.d12 (inj _ _ _ h.h1 ?_)
    rw [h.h2, ordered_comm, e]

/-- The edge-triangle matrix that a successful run builds. -/
theorem triangleColumns_done {G : FlowGraph} (h : G.Wf) {triangles : List Tri} {B2 : Mat}
    (hrun : foldE (setTriangleColumn G) (Mat.zeros G.edges.length triangles.length) triangles.zipIdx = .ok B2) :
    B2.rows = G.edges.length ∧ B2.cols = triangles.length ∧
    ∀ (i : Nat) (t : Tri), triangles[i]? = some t → ∃ e1 e2 e3, TriangleColumn G B2 t i e1 e2 e3 := by
  have key := foldE_done (fun pre (B : Mat) => B.rows = G.edges.length ∧ B.cols = triangles.length ∧
      (∀ ti ∈ pre, ∃ e1 e2 e3, TriangleColumn G B ti.1 ti.2 e1 e2 e3) ∧
      (∀ i, (∀ ti ∈ pre, ti.2 ≠ i) → ∀ k, B.entry k i = 0)) hrun
    ⟨rfl, rfl, by simp, by simp [Mat.zeros]⟩ (by
      rintro pre ⟨t, i⟩ post B B' hl ⟨i1, i2, i3, i4⟩ hs
      unfold setTriangleColumn at hs
      obtain ⟨⟨e1, o1⟩, h1, hs⟩ := bind_eq_ok.mp hs
      obtain ⟨⟨e2, o2⟩, h2, hs⟩ := bind_eq_ok.mp hs
      obtain ⟨⟨e3, o3⟩, h3, hs⟩ := bind_eq_ok.mp hs
      obtain ⟨u, ha, hs⟩ := bind_eq_ok.mp hs
      rw [pyAssert_eq_ok, decide_eq_true_eq] at ha
      simp only at ha
      obtain ⟨d12, d13, d23⟩ := ha
      obtain ⟨t1, rfl⟩ := (edgeAndOrientation_ok h).mp h1
      obtain ⟨t2, rfl⟩ := (edgeAndOrientation_ok h).mp h2
      obtain ⟨t3, rfl⟩ := (edgeAndOrientation_ok h).mp h3
      obtain ⟨C, hC, hs⟩ := bind_eq_ok.mp hs
      obtain ⟨-, rfl⟩ := Mat.set_eq_ok.mp hC
      obtain ⟨C, hC, hs⟩ := bind_eq_ok.mp hs
      obtain ⟨-, rfl⟩ := Mat.set_eq_ok.mp hC
      obtain ⟨-, rfl⟩ := Mat.set_eq_ok.mp hs
      have hfresh : ∀ ti ∈ pre, ti.2 ≠ i := by
        have hnd : (triangles.zipIdx.map Prod.snd).Nodup := by
          rw [List.zipIdx_map_snd]
          exact List.nodup_range'
        rw [hl, List.map_append, List.nodup_append] at hnd
        intro ti hm
        exact hnd.2.2 _ (List.mem_map_of_mem hm) i (by simp)
      refine ⟨i1, i2, ?_, ?_⟩
      · intro ti hti
        rw [List.mem_append, List.mem_singleton] at hti
        rcases hti with hti | rfl
        · obtain ⟨f1, f2, f3, c⟩ := i3 ti hti
          have hne := hfresh ti hti
          exact ⟨f1, f2, f3, ⟨c.h1, c.h2, c.h3, c.d12, c.d13, c.d23, by simp [hne, c.s1], by simp [hne, c.s2],
            by simp [hne, c.s3], by intro k a1 a2 a3; simp [hne, c.zero k a1 a2 a3]⟩⟩
        · refine ⟨e1, e2, e3, ⟨t1, t2, t3, d12, d13, d23, by simp [d12, d13], by simp [d23], by simp, ?_⟩⟩
          intro k a1 a2 a3
          simp only [a1, a2, a3, false_and, if_false]
          exact i4 i hfresh k
      · intro j hj k
        have hji : j ≠ i := fun e => hj (t, i) (by simp) e.symm
        simp only [hji, and_false, if_false]
        exact i4 j (fun ti hti => hj ti (by simp [hti])) k)
  obtain ⟨k1, k2, k3, -⟩ := key
  refine ⟨k1, k2, fun i t hi => k3 (t, i) ?_⟩
  rw [List.mem_zipIdx_iff_getElem?]
  exact hi

theorem triangleColumns_ok {G : FlowGraph} (h : G.Wf) {triangles : List Tri}
    (hG : ∀ t ∈ triangles, ordered t.1 t.2.1 ∈ G.tuples ∧ ordered t.2.1 t.2.2 ∈ G.tuples ∧
      ordered t.2.2 t.1 ∈ G.tuples)
    (hd : ∀ t ∈ triangles, t.1 ≠ t.2.1 ∧ t.2.1 ≠ t.2.2 ∧ t.2.2 ≠ t.1) :
    ∃ B2, foldE (setTriangleColumn G) (Mat.zeros G.edges.length triangles.length) triangles.zipIdx = .ok B2 := by
  obtain ⟨B2, h1, -⟩ := foldE_inv (f := setTriangleColumn G) (l := triangles.zipIdx)
    (s := Mat.zeros G.edges.length triangles.length)
    (fun _ (B : Mat) => B.rows = G.edges.length ∧ B.cols = triangles.length) ⟨rfl, rfl⟩ (by
      rintro pre ⟨t, i⟩ post B hl ⟨i1, i2⟩
      have hm : (t, i) ∈ triangles.zipIdx := by rw [hl]; simp
      rw [List.mem_zipIdx_iff_getElem?] at hm
      simp only at hm
      have hi := lt_of_get hm
      have ht := List.mem_of_getElem? hm
      obtain ⟨g1, g2, g3⟩ := hG t ht
      obtain ⟨d1, d2, d3⟩ := hd t ht
      obtain ⟨e1, t1⟩ := List.getElem?_of_mem g1
      obtain ⟨e2, t2⟩ := List.getElem?_of_mem g2
      obtain ⟨e3, t3⟩ := List.getElem?_of_mem g3
      have l1 := lt_of_get t1
      have l2 := lt_of_get t2
      have l3 := lt_of_get t3
      rw [FlowGraph.tuples_length] at l1 l2 l3
      have d12 : e1 ≠ e2 := by
        rintro rfl
        rw [t1, Option.some.injEq, ordered_eq_iff] at t2
        omega
      have d13 : e1 ≠ e3 := by
        rintro rfl
        rw [t1, Option.some.injEq, ordered_eq_iff] at t3
        omega
      have d23 : e2 ≠ e3 := by
        rintro rfl
        rw [t2, Option.some.injEq, ordered_eq_iff] at t3
        omega
      unfold setTriangleColumn
      simp only
      rw [(edgeAndOrientation_ok h (r := (e1, stepSign t.1 t.2.1))).mpr ⟨t1, rfl⟩, ok_bind,
        (edgeAndOrientation_ok h (r := (e2, stepSign t.2.1 t.2.2))).mpr ⟨t2, rfl⟩, ok_bind,
        (edgeAndOrientation_ok h (r := (e3, stepSign t.2.2 t.1))).mpr ⟨t3, rfl⟩, ok_bind]
      simp only
      rw [decide_eq_true (⟨d12, d13, d23⟩ : e1 ≠ e2 ∧ e1 ≠ e3 ∧ e2 ≠ e3)]
      unfold Mat.set
      simp only [pyAssert, if_true, ok_bind]
      rw [if_pos ⟨by omega, by omega⟩, ok_bind]
      simp only
      rw [if_pos ⟨by omega, by omega⟩, ok_bind]
      simp only
      rw [if_pos ⟨by omega, by omega⟩]
      exact ⟨_, rfl, i1, i2⟩)
  exact ⟨B2, h1⟩

/-- A step along an edge, as a column of the node-edge matrix. -/
theorem nodeEdge_step {u v w : Nat} (h : u ≠ v) :
    nodeEdge w (ordered u v) * stepSign u v = (if w = v then 1 else 0) - (if w = u then 1 else 0) := by
  unfold stepSign
  by_cases hlt : u < v
  · rw [ordered_of_le (by omega), if_pos hlt]
    unfold nodeEdge
    simp only
    by_cases h1 : w = v
    · subst h1; simp [Ne.symm h]
    · by_cases h2 : w = u
      · subst h2; simp [h1]
      · simp [h1, h2]
  · rw [ordered_comm, ordered_of_le (by omega), if_neg hlt]
    unfold nodeEdge
    simp only
    by_cases h1 : w = u
    · subst h1; simp [h]
    · by_cases h2 : w = v
      · subst h2; simp [h1]
      · simp [h1, h2]

end Verif
