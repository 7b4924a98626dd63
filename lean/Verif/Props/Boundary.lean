import Verif.Lemmas.Boundary
import Verif.Props.Hole

/-!
# Properties of the boundary matrices of a triangulation (C41)
-/

namespace Verif

variable {P : Type}

/-- A triangulation of points: triangles have three different corners, these are points, and every point is
a corner. -/
structure Triangulates (points : List P) (triangles : List Tri) : Prop where
  distinct : ∀ t ∈ triangles, t.1 ≠ t.2.1 ∧ t.2.1 ≠ t.2.2 ∧ t.2.2 ≠ t.1
  corners : ∀ t ∈ triangles, ∀ v ∈ t.corners, v < points.length
  covers : ∀ i, i < points.length → ∃ t ∈ triangles, i ∈ t.corners

/-- The steps along a triangle, around it. -/
def Tri.steps (t : Tri) : List (Nat × Nat) := [(t.1, t.2.1), (t.2.1, t.2.2), (t.2.2, t.1)]

/-- `edges` are the edges of the triangles, each once, with its smaller end first. -/
structure SidesOf (triangles : List Tri) (edges : List (Nat × Nat)) : Prop where
  nodup : edges.Nodup
  mem : ∀ u v, (u, v) ∈ edges ↔ u < v ∧ ∃ t ∈ triangles, u ∈ t.corners ∧ v ∈ t.corners

theorem Tri.mem_corners {t : Tri} {v : Nat} : v ∈ t.corners ↔ v = t.1 ∨ v = t.2.1 ∨ v = t.2.2 := by
  simp [Tri.corners]

theorem sidesOf_tuples {points : List P} {triangles : List Tri} {G : FlowGraph}
    (hrun : graphFromTriangulation points triangles = .ok G)
    (hd : ∀ t ∈ triangles, t.1 ≠ t.2.1 ∧ t.2.1 ≠ t.2.2 ∧ t.2.2 ≠ t.1) : SidesOf triangles G.tuples := by
  obtain ⟨wf, -, ht⟩ := FlowGraph.graph_done hrun
  refine ⟨wf.nodup, fun u v => ?_⟩
  rw [ht]
  constructor
  · rintro ⟨t, h1, p, h2, h3⟩
    have hdt := hd t h1
    simp only [FlowGraph.sides, List.mem_cons, List.not_mem_nil, or_false] at h2
    unfold ordered at h3
    rw [Prod.mk.injEq] at h3
    refine ⟨?_, t, h1, ?_, ?_⟩
    · rcases h2 with rfl | rfl | rfl <;> simp only at h3 <;> omega
    · rw [Tri.mem_corners]
      rcases h2 with rfl | rfl | rfl <;> simp only at h3 <;> omega
    · rw [Tri.mem_corners]
      rcases h2 with rfl | rfl | rfl <;> simp only at h3 <;> omega
  · rintro ⟨huv, t, h1, h2, h3⟩
    refine ⟨t, h1, ?_⟩
    simp only [FlowGraph.sides, List.mem_cons, List.not_mem_nil, or_false, exists_eq_or_imp, exists_eq_left]
    rw [Tri.mem_corners] at h2 h3
    unfold ordered
    simp only [Prod.mk.injEq]
    omega

theorem steps_in_tuples {points : List P} {triangles : List Tri} {G : FlowGraph}
    (hrun : graphFromTriangulation points triangles = .ok G) {t : Tri} (ht : t ∈ triangles) :
    ordered t.1 t.2.1 ∈ G.tuples ∧ ordered t.2.1 t.2.2 ∈ G.tuples ∧ ordered t.2.2 t.1 ∈ G.tuples := by
  obtain ⟨-, -, hm⟩ := FlowGraph.graph_done hrun
  refine ⟨(hm _).mpr ⟨t, ht, (t.1, t.2.1), ?_, rfl⟩, (hm _).mpr ⟨t, ht, (t.2.1, t.2.2), ?_, rfl⟩, ?_⟩
  · simp [FlowGraph.sides]
  · simp [FlowGraph.sides]
  · rw [ordered_comm]
    exact (hm _).mpr ⟨t, ht, (t.1, t.2.2), by simp [FlowGraph.sides], rfl⟩

/-- The parts of a successful extraction. -/
theorem extract_parts {G : FlowGraph} {triangles : List Tri} {B1 B2 : Mat}
    (h : extractBoundaryMatrices G triangles = .ok (B1, B2)) :
    foldE (setEdgeColumn G) (Mat.zeros G.nodes.length G.edges.length) (List.range G.edges.length) = .ok B1 ∧
    foldE (setTriangleColumn G) (Mat.zeros G.edges.length triangles.length) triangles.zipIdx = .ok B2 := by
  unfold extractBoundaryMatrices at h
  obtain ⟨C1, h1, h⟩ := bind_eq_ok.mp h
  obtain ⟨u, -, h⟩ := bind_eq_ok.mp h
  obtain ⟨u, -, h⟩ := bind_eq_ok.mp h
  obtain ⟨u, -, h⟩ := bind_eq_ok.mp h
  obtain ⟨C2, h2, h⟩ := bind_eq_ok.mp h
  obtain ⟨u, -, h⟩ := bind_eq_ok.mp h
  obtain ⟨u, -, h⟩ := bind_eq_ok.mp h
  rw [pure_eq_ok, ok_inj, Prod.mk.injEq] at h
  rw [← h.1, ← h.2]
  exact ⟨h1, h2⟩

/-- **C41** The boundary of a boundary is zero: whenever the extraction of the boundary matrices of the graph of
triangles succeeds, their product is the zero matrix. -/
theorem C41_boundary_of_a_boundary_is_zero (points : List P) (triangles : List Tri) (G : FlowGraph) (B1 B2 : Mat)
    (hG : graphFromTriangulation points triangles = .ok G)
    (hB : extractBoundaryMatrices G triangles = .ok (B1, B2)) :
    ∃ Z, B1.dot B2 = .ok Z ∧ Z.rows = B1.rows ∧ Z.cols = triangles.length ∧
      ∀ v i, i < triangles.length → Z.entry v i = 0 := by
  obtain ⟨wf, -, -⟩ := FlowGraph.graph_done hG
  obtain ⟨h1, h2⟩ := extract_parts hB
  obtain ⟨-, c1, -, e1⟩ := edgeColumns_done wf h1
  obtain ⟨r2, c2, e2⟩ := triangleColumns_done wf h2
  refine ⟨_, Mat.dot_eq (by rw [c1, r2]), rfl, c2, ?_⟩
  intro v i hi
  obtain ⟨k1, k2, k3, c⟩ := e2 i _ (List.getElem?_eq_getElem hi)
  obtain ⟨d1, d2, d3⟩ := c.distinct wf
  have l1 := lt_of_get c.h1
  have l2 := lt_of_get c.h2
  have l3 := lt_of_get c.h3
  rw [FlowGraph.tuples_length] at l1 l2 l3
  simp only
  rw [sum_range_three (i := k1) (j := k2) (l := k3) (by omega) (by omega) (by omega) c.d12 c.d13 c.d23
    (fun k a1 a2 a3 => by rw [c.zero k a1 a2 a3, mul_zero])]
  rw [e1 v k1 _ c.h1, e1 v k2 _ c.h2, e1 v k3 _ c.h3, c.s1, c.s2, c.s3, nodeEdge_step d1, nodeEdge_step d2,
    nodeEdge_step d3]
  ring

/-- A square with its centre: four triangles. -/
def fanPoints : List (Nat × Nat) := [(0, 0), (4, 0), (2, 2), (0, 4), (4, 4)]

def fanTriangles : List Tri := [(0, 1, 2), (1, 4, 2), (3, 2, 4), (0, 2, 3)]

/-- The boundaries of the four triangles have no boundary. -/
example : (do
    let G ← graphFromTriangulation fanPoints fanTriangles
    let B ← extractBoundaryMatrices G fanTriangles
    let Z ← B.1.dot B.2
    return (List.range 5).map fun v => (List.range 4).map fun i => Z.entry v i : Py _) =
    .ok (List.replicate 5 [0, 0, 0, 0]) := by decide +kernel

theorem Tri.mem_steps_rotate {x y z : Nat} {p : Nat × Nat} :
    p ∈ Tri.steps (y, z, x) ↔ p ∈ Tri.steps (x, y, z) := by
  simp only [Tri.steps, List.mem_cons, List.not_mem_nil, or_false]
  tauto

theorem step_entry {x y z a b : Nat} (h1 : x ≠ y) (h2 : y ≠ z) (h3 : z ≠ x) (hab : a < b)
    (h : (a, b) = ordered x y) :
    (stepSign x y = 1 ↔ (a, b) ∈ Tri.steps (x, y, z)) ∧ (stepSign x y = -1 ↔ (b, a) ∈ Tri.steps (x, y, z)) ∧
      (stepSign x y = 0 ↔ (a, b) ∉ Tri.steps (x, y, z) ∧ (b, a) ∉ Tri.steps (x, y, z)) := by
  have h1' := h1.symm
  have h2' := h2.symm
  have h3' := h3.symm
  unfold stepSign
  rcases Nat.lt_or_gt_of_ne h1 with hl | hl
  · rw [ordered_of_le hl.le, Prod.mk.injEq] at h
    obtain ⟨rfl, rfl⟩ := h
    simp [hl, Tri.steps, h1, h2, h3, h1', h2', h3']
  · rw [ordered_comm, ordered_of_le hl.le, Prod.mk.injEq] at h
    obtain ⟨rfl, rfl⟩ := h
    simp [Nat.not_lt.mpr hl.le, Tri.steps, h1, h2, h3, h1', h2', h3']

/-- **C41** What the boundary matrices are: the columns of `B1` are the edges of the triangles, each once, with
-1 at the smaller and 1 at the larger end, and numbered as in the dictionary of the graph; an entry of `B2` is 1 if the triangle runs along the edge upwards, -1
if it runs along it downwards, and 0 if the edge is not a side of the triangle. -/
theorem C41_entries (points : List P) (triangles : List Tri) (G : FlowGraph) (B1 B2 : Mat)
    (hG : graphFromTriangulation points triangles = .ok G)
    (hB : extractBoundaryMatrices G triangles = .ok (B1, B2)) :
    ∃ edges, SidesOf triangles edges ∧ (∀ q e, Dict.get G.tupleToEdge q = .ok e ↔ edges[e]? = some q) ∧
      B1.rows = G.nodes.length ∧ B1.cols = edges.length ∧
      B2.rows = edges.length ∧ B2.cols = triangles.length ∧
      (∀ (v e a b : Nat), edges[e]? = some (a, b) → (B1.entry v e = 1 ↔ v = b) ∧ (B1.entry v e = -1 ↔ v = a) ∧
        (B1.entry v e = 0 ↔ v ≠ a ∧ v ≠ b)) ∧
      (∀ (e i a b : Nat) (t : Tri), edges[e]? = some (a, b) → triangles[i]? = some t →
        (B2.entry e i = 1 ↔ (a, b) ∈ t.steps) ∧ (B2.entry e i = -1 ↔ (b, a) ∈ t.steps) ∧
        (B2.entry e i = 0 ↔ (a, b) ∉ t.steps ∧ (b, a) ∉ t.steps)) := by
  obtain ⟨wf, -, -⟩ := FlowGraph.graph_done hG
  obtain ⟨h1, h2⟩ := extract_parts hB
  obtain ⟨r1, c1, -, e1⟩ := edgeColumns_done wf h1
  obtain ⟨r2, c2, e2⟩ := triangleColumns_done wf h2
  have hdist : ∀ t ∈ triangles, t.1 ≠ t.2.1 ∧ t.2.1 ≠ t.2.2 ∧ t.2.2 ≠ t.1 := by
    intro t ht
    obtain ⟨i, hi⟩ := List.getElem?_of_mem ht
    obtain ⟨k1, k2, k3, c⟩ := e2 i t hi
    exact c.distinct wf
  have hs := sidesOf_tuples hG hdist
  have hlt : ∀ (e a b : Nat), G.tuples[e]? = some (a, b) → a < b := fun e a b he =>
    ((hs.mem a b).mp (List.mem_of_getElem? he)).1
  refine ⟨G.tuples, hs, fun q e => wf.get, r1, by rw [c1, FlowGraph.tuples_length], by rw [r2, FlowGraph.tuples_length], c2, ?_, ?_⟩
  · intro v e a b he
    have hab := hlt e a b he
    rw [e1 v e _ he]
    unfold nodeEdge
    simp only
    by_cases hb : v = b
    · subst hb
      simp
      omega
    · by_cases ha : v = a
      · subst ha
        simp [hb]
      · simp [ha, hb]
  · intro e i a b t he hi
    have hab := hlt e a b he
    obtain ⟨k1, k2, k3, c⟩ := e2 i t hi
    obtain ⟨d1, d2, d3⟩ := c.distinct wf
    have inj : ∀ k : Nat, ∀ u w, G.tuples[k]? = some (ordered u w) → ((a, b) = ordered u w ↔ e = k) := by
      intro k u w hk
      constructor
      · intro hq
        rw [← hq] at hk
        have l1 := lt_of_get he
        have l2 := lt_of_get hk
        rw [List.getElem?_eq_getElem l1, Option.some.injEq] at he
        rw [List.getElem?_eq_getElem l2, Option.some.injEq] at hk
        exact (List.Nodup.getElem_inj_iff wf.nodup (hi := l1) (hj := l2)).mp (he.trans hk.symm)
      · rintro rfl
        rw [he] at hk
        exact Option.some.inj hk
    have i1 := inj k1 _ _ c.h1
    have i2 := inj k2 _ _ c.h2
    have i3 := inj k3 _ _ c.h3
    by_cases f1 : e = k1
    · rw [f1, c.s1]
      exact step_entry d1 d2 d3 hab (i1.mpr f1)
    · by_cases f2 : e = k2
      · rw [f2, c.s2]
        have := step_entry d2 d3 d1 hab (i2.mpr f2)
        simpa only [Tri.mem_steps_rotate] using this
      · by_cases f3 : e = k3
        · rw [f3, c.s3]
          have := step_entry d3 d1 d2 hab (i3.mpr f3)
          simpa only [Tri.mem_steps_rotate] using this
        · rw [c.zero e f1 f2 f3]
          have hno : ∀ u w, ordered u w = (a, b) → (u, w) ∉ t.steps := by
            intro u w huw hm
            simp only [Tri.steps, List.mem_cons, List.not_mem_nil, or_false] at hm
            rcases hm with hm | hm | hm <;> rw [Prod.mk.injEq] at hm <;> obtain ⟨rfl, rfl⟩ := hm
            · exact f1 (i1.mp huw.symm)
            · exact f2 (i2.mp huw.symm)
            · exact f3 (i3.mp huw.symm)
          have n1 := hno a b (ordered_of_le hab.le)
          have n2 := hno b a (by rw [ordered_comm]; exact ordered_of_le hab.le)
          simp [n1, n2]

/-- The matrices of the square with its centre. -/
example : (do
    let G ← graphFromTriangulation fanPoints fanTriangles
    let B ← extractBoundaryMatrices G fanTriangles
    return ((List.range 5).map fun v => (List.range 8).map fun e => B.1.entry v e,
      (List.range 8).map fun e => (List.range 4).map fun i => B.2.entry e i) : Py _) =
    .ok ([[-1, -1, 0, 0, 0, 0, 0, -1], [1, 0, -1, -1, 0, 0, 0, 0], [0, 1, 1, 0, -1, -1, 0, 0],
        [0, 0, 0, 0, 0, 1, -1, 1], [0, 0, 0, 1, 1, 0, 1, 0]],
      [[1, 0, 0, 0], [-1, 0, 0, 1], [1, -1, 0, 0], [0, 1, 0, 0], [0, -1, 1, 0], [0, 0, -1, 1], [0, 0, -1, 0],
        [0, 0, 0, -1]]) := by decide +kernel

theorem nodes_length {points : List P} {triangles : List Tri} {G : FlowGraph} (ht : Triangulates points triangles)
    (hG : graphFromTriangulation points triangles = .ok G) : G.nodes.length = points.length := by
  obtain ⟨wf, hn, -⟩ := FlowGraph.graph_done hG
  have hperm : G.nodes.Perm (List.range points.length) := by
    rw [List.perm_ext_iff_of_nodup wf.nodes List.nodup_range]
    intro v
    rw [hn, List.mem_range]
    exact ⟨fun ⟨t, h1, h2⟩ => ht.corners t h1 v h2, ht.covers v⟩
  rw [hperm.length_eq, List.length_range]

/-- **C41** The extraction passes only if, in whatever graph it is given, every node has an edge and every edge a
triangle. -/
theorem C41_checks (G : FlowGraph) (triangles : List Tri) (B1 B2 : Mat)
    (h : extractBoundaryMatrices G triangles = .ok (B1, B2)) :
    (∀ v < G.nodes.length, ∃ e < B1.cols, B1.entry v e ≠ 0) ∧
    ∀ e < G.edges.length, ∃ i < B2.cols, B2.entry e i ≠ 0 := by
  have key : ∀ (A : Mat) (i : Nat), 0 < A.rowAbs i → ∃ j < A.cols, A.entry i j ≠ 0 := by
    intro A i hp
    by_contra hn
    have : A.rowAbs i = 0 := by
      unfold Mat.rowAbs
      rw [List.sum_eq_zero]
      intro x hx
      obtain ⟨j, hj, rfl⟩ := List.mem_map.mp hx
      rw [Int.natAbs_eq_zero]
      by_contra hne
      exact hn ⟨j, List.mem_range.mp hj, hne⟩
    omega
  unfold extractBoundaryMatrices at h
  obtain ⟨C1, h1, h⟩ := bind_eq_ok.mp h
  obtain ⟨u, a1, h⟩ := bind_eq_ok.mp h
  obtain ⟨u, -, h⟩ := bind_eq_ok.mp h
  obtain ⟨u, -, h⟩ := bind_eq_ok.mp h
  obtain ⟨C2, h2, h⟩ := bind_eq_ok.mp h
  obtain ⟨u, -, h⟩ := bind_eq_ok.mp h
  obtain ⟨u, a2, h⟩ := bind_eq_ok.mp h
  rw [pure_eq_ok, ok_inj, Prod.mk.injEq] at h
  rw [← h.1, ← h.2]
  rw [pyAssert_eq_ok, List.all_eq_true] at a1 a2
  exact ⟨fun v hv => key _ _ (by simpa using a1 v (List.mem_range.mpr hv)),
    fun e he => key _ _ (by simpa using a2 e (List.mem_range.mpr he))⟩

/-- Four triangles of five points pass; without the last one, an edge of the graph has no triangle. -/
example : (do
      let G ← graphFromTriangulation fanPoints fanTriangles
      let B ← extractBoundaryMatrices G fanTriangles
      return B.2.cols) = .ok 4 ∧
    (do
      let G ← graphFromTriangulation fanPoints fanTriangles
      let B ← extractBoundaryMatrices G (fanTriangles.take 3)
      return B.2.cols) = .error .assertion := by decide +kernel

/-- **C41** For a triangulation the graph is built and the extraction passes all its checks. -/
theorem C41_extraction_succeeds (points : List P) (triangles : List Tri) (ht : Triangulates points triangles) :
    ∃ G B1 B2, graphFromTriangulation points triangles = .ok G ∧ G.nodes.length = points.length ∧
      extractBoundaryMatrices G triangles = .ok (B1, B2) := by
  obtain ⟨G, hG⟩ := FlowGraph.graph_ok ht.corners
  obtain ⟨wf, hn, hmem⟩ := FlowGraph.graph_done hG
  have hs := sidesOf_tuples hG ht.distinct
  have hnl := nodes_length ht hG
  have hend : ∀ q ∈ G.tuples, q.1 < G.nodes.length ∧ q.2 < G.nodes.length := by
    rintro ⟨a, b⟩ hq
    obtain ⟨-, t, h1, h2, h3⟩ := (hs.mem a b).mp hq
    rw [hnl]
    exact ⟨ht.corners t h1 a h2, ht.corners t h1 b h3⟩
  obtain ⟨B1, h1⟩ := edgeColumns_ok wf hend
  obtain ⟨B2, h2⟩ := triangleColumns_ok wf (fun t h => steps_in_tuples hG h) ht.distinct
  obtain ⟨r1, c1, -, e1⟩ := edgeColumns_done wf h1
  obtain ⟨r2, c2, e2⟩ := triangleColumns_done wf h2
  refine ⟨G, B1, B2, hG, hnl, ?_⟩
  have a1 : ((List.range G.nodes.length).all fun i => decide (0 < B1.rowAbs i)) = true := by
    rw [List.all_eq_true]
    intro v hv
    rw [List.mem_range, hnl] at hv
    obtain ⟨t, t1, t2⟩ := ht.covers v hv
    obtain ⟨d1, d2, d3⟩ := ht.distinct t t1
    obtain ⟨w, hw, hne⟩ : ∃ w ∈ t.corners, w ≠ v := by
      rw [Tri.mem_corners] at t2
      by_cases h : v = t.1
      · exact ⟨t.2.1, by simp [Tri.corners], fun e => d1 (by omega)⟩
      · exact ⟨t.1, by simp [Tri.corners], fun e => h e.symm⟩
    have hq : ordered v w ∈ G.tuples := by
      unfold ordered
      rw [hs.mem]
      refine ⟨by omega, t, t1, ?_, ?_⟩
      · rcases Nat.le_total v w with h | h
        · rw [Nat.min_eq_left h]; exact t2
        · rw [Nat.min_eq_right h]; exact hw
      · rcases Nat.le_total v w with h | h
        · rw [Nat.max_eq_right h]; exact hw
        · rw [Nat.max_eq_left h]; exact t2
    obtain ⟨e, he⟩ := List.getElem?_of_mem hq
    have hel := lt_of_get he
    rw [FlowGraph.tuples_length] at hel
    rw [decide_eq_true_eq]
    unfold Mat.rowAbs
    refine sum_pos_of_mem (List.mem_map.mpr ⟨e, List.mem_range.mpr (by omega), rfl⟩) ?_
    rw [e1 v e _ he]
    unfold nodeEdge ordered
    simp only
    split
    · decide
    · rw [if_pos (by omega)]
      decide
  have hcol : ∀ j, j < G.edges.length → B1.colAbs j = 2 ∧ B1.colSum j = 0 := by
    intro j hj
    have hjt : j < G.tuples.length := by rw [FlowGraph.tuples_length]; exact hj
    have hq := List.getElem?_eq_getElem hjt
    obtain ⟨q, hq'⟩ : ∃ q, q = G.tuples[j] := ⟨_, rfl⟩
    rw [← hq'] at hq
    obtain ⟨a, b⟩ := q
    obtain ⟨hab, -⟩ := (hs.mem a b).mp (List.mem_of_getElem? hq)
    obtain ⟨la, lb⟩ := hend (a, b) (List.mem_of_getElem? hq)
    simp only at la lb
    have z : ∀ k, k ≠ a → k ≠ b → B1.entry k j = 0 := by
      intro k k1 k2
      rw [e1 k j _ hq]
      simp [nodeEdge, k1, k2]
    have va : B1.entry a j = -1 := by
      rw [e1 a j _ hq]
      simp only [nodeEdge, if_true, if_neg (show ¬ a = b by omega)]
    have vb : B1.entry b j = 1 := by
      rw [e1 b j _ hq]
      simp only [nodeEdge, if_true]
    constructor
    · unfold Mat.colAbs
      rw [sum_range_two (i := a) (j := b) (by omega) (by omega) (by omega)
        (fun k k1 k2 => by rw [z k k1 k2]; rfl), va, vb]
      rfl
    · unfold Mat.colSum
      rw [sum_range_two (i := a) (j := b) (by omega) (by omega) (by omega)
        (fun k k1 k2 => z k k1 k2), va, vb]
      rfl
  have a2 : ((List.range G.edges.length).all fun j => decide (B1.colAbs j = 2)) = true := by
    rw [List.all_eq_true]
    intro j hj
    rw [decide_eq_true_eq]
    exact (hcol j (List.mem_range.mp hj)).1
  have a3 : ((List.range G.edges.length).all fun j => decide (B1.colSum j = 0)) = true := by
    rw [List.all_eq_true]
    intro j hj
    rw [decide_eq_true_eq]
    exact (hcol j (List.mem_range.mp hj)).2
  have habs : ∀ u v, (stepSign u v).natAbs = 1 := by
    intro u v
    unfold stepSign
    split <;> rfl
  have a4 : ((List.range triangles.length).all fun j => decide (B2.colAbs j = 3)) = true := by
    rw [List.all_eq_true]
    intro i hi
    rw [List.mem_range] at hi
    obtain ⟨k1, k2, k3, c⟩ := e2 i _ (List.getElem?_eq_getElem hi)
    have l1 := lt_of_get c.h1
    have l2 := lt_of_get c.h2
    have l3 := lt_of_get c.h3
    rw [FlowGraph.tuples_length] at l1 l2 l3
    rw [decide_eq_true_eq]
    unfold Mat.colAbs
    rw [sum_range_three (i := k1) (j := k2) (l := k3) (by omega) (by omega) (by omega) c.d12 c.d13 c.d23
      (fun k b1 b2 b3 => by rw [c.zero k b1 b2 b3]; rfl), c.s1, c.s2, c.s3, habs, habs, habs]
  have a5 : ((List.range G.edges.length).all fun e => decide (0 < B2.rowAbs e)) = true := by
    rw [List.all_eq_true]
    intro e he
    rw [List.mem_range] at he
    have het : e < G.tuples.length := by rw [FlowGraph.tuples_length]; exact he
    have hq := List.getElem?_eq_getElem het
    obtain ⟨t, t1, p, hp, hpe⟩ := (hmem _).mp (List.mem_of_getElem? hq)
    rw [hpe] at hq
    obtain ⟨i, hi⟩ := List.getElem?_of_mem t1
    have hil := lt_of_get hi
    obtain ⟨k1, k2, k3, c⟩ := e2 i t hi
    rw [decide_eq_true_eq]
    unfold Mat.rowAbs
    refine sum_pos_of_mem (List.mem_map.mpr ⟨i, List.mem_range.mpr (by omega), rfl⟩) ?_
    have inj : ∀ k : Nat, G.tuples[k]? = some (ordered p.1 p.2) → e = k := by
      intro k hk
      have l2 := lt_of_get hk
      rw [List.getElem?_eq_getElem het, Option.some.injEq] at hq
      rw [List.getElem?_eq_getElem l2, Option.some.injEq] at hk
      exact (List.Nodup.getElem_inj_iff wf.nodup (hi := het) (hj := l2)).mp (hq.trans hk.symm)
    simp only [FlowGraph.sides, List.mem_cons, List.not_mem_nil, or_false] at hp
    rcases hp with rfl | rfl | rfl
    · rw [inj k1 c.h1, c.s1, habs]; decide
    · rw [inj k3 (by rw [ordered_comm]; exact c.h3), c.s3, habs]; decide
    · rw [inj k2 c.h2, c.s2, habs]; decide
  unfold extractBoundaryMatrices
  simp only [h1, ok_bind, a1, a2, a3, h2, a4, a5, pyAssert, if_true]
  rfl

example := C41_extraction_succeeds fanPoints fanTriangles ⟨by decide, by decide, by decide⟩

/-- **C45** Cutting a hole turns a triangulation into a triangulation. -/
theorem C45_keeps_triangulations (points : List P) (triangles : List Tri) (inside : P → Bool)
    (ht : Triangulates points triangles) (points' : List P) (triangles' : List Tri)
    (hrun : createHole points triangles inside = .ok (points', triangles')) :
    Triangulates points' triangles' := by
  have hk : ∃ t ∈ triangles, Outside points inside t := by
    by_contra hno
    rw [C45_rejected points triangles inside (.inr fun t h1 h2 => hno ⟨t, h1, h2⟩)] at hrun
    cases hrun
  obtain ⟨p', t', ρ, h1, h2, h3, h4, -, h6, h7, -⟩ := C45_create_hole points triangles inside ht.corners hk
  rw [hrun, ok_inj, Prod.mk.injEq] at h1
  obtain ⟨rfl, rfl⟩ := h1
  refine ⟨?_, fun t h => (h6 t h).2, h7⟩
  have inj : ∀ u v, Remains points inside triangles u → Remains points inside triangles v → u ≠ v → ρ u ≠ ρ v := by
    intro u v hu hv huv
    rcases Nat.lt_or_gt_of_ne huv with h | h
    · have := h4 u v hu hv h; omega
    · have := h4 v u hv hu h; omega
  intro t h
  rw [h2] at h
  obtain ⟨s, hs, rfl⟩ := List.mem_map.mp h
  rw [List.mem_filter, decide_eq_true_eq] at hs
  obtain ⟨d1, d2, d3⟩ := ht.distinct s hs.1
  have hr : ∀ w ∈ s.corners, Remains points inside triangles w := fun w hw => ⟨s, hs.1, hs.2, hw⟩
  have r1 := hr s.1 (by simp [Tri.corners])
  have r2 := hr s.2.1 (by simp [Tri.corners])
  have r3 := hr s.2.2 (by simp [Tri.corners])
  exact ⟨inj _ _ r1 r2 d1, inj _ _ r2 r3 d2, inj _ _ r3 r1 d3⟩

/-- A hole around the lower left corner of the square with its centre. -/
example : ∃ points triangles, createHole fanPoints fanTriangles (fun p => p == (0, 0)) = .ok (points, triangles) ∧
    Triangulates points triangles := by
  have h : ∃ r, createHole fanPoints fanTriangles (fun p => p == (0, 0)) = .ok r := by
    refine ⟨(createHole fanPoints fanTriangles (fun p => p == (0, 0))).toOption.get (by decide), by decide⟩
  obtain ⟨r, h⟩ := h
  exact ⟨r.1, r.2, h, C45_keeps_triangulations _ _ _ ⟨by decide, by decide, by decide⟩ _ _ h⟩

end Verif
