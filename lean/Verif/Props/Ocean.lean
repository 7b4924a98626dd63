import Verif.Lemmas.Strip
import Verif.Props.Trajectory
import Mathlib.Algebra.Order.Ring.Int

/-!
# C42, C43: flows of walks, stripped walks; C41 for the matrices of the ocean dataset

`edgeList` is the list of edges that the graph is made of, in any order, with repetitions and in any direction.
-/

namespace Verif

variable {P D : Type}

/-- The graph of the given edges has no loops. -/
def LoopFree (edgeList : List (Nat × Nat)) : Prop := ∀ e ∈ edgeList, e.1 ≠ e.2

theorem ordered_mem_arrays {edgeList : List (Nat × Nat)} {u v : Nat} :
    ordered u v ∈ (oceanArrays edgeList).2 ↔ (u, v) ∈ edgeList ∨ (v, u) ∈ edgeList := by
  rw [(oceanEdges_spec edgeList).2]
  constructor
  · rintro ⟨⟨a, b⟩, he, h⟩
    rcases ordered_eq_iff.mp h with ⟨rfl, rfl⟩ | ⟨rfl, rfl⟩
    · exact .inl he
    · exact .inr he
  · rintro (h | h)
    · exact ⟨_, h, rfl⟩
    · exact ⟨_, h, ordered_comm _ _⟩

theorem arrays_lt {edgeList : List (Nat × Nat)} (h : LoopFree edgeList) :
    ∀ q ∈ (oceanArrays edgeList).2, q.1 < q.2 := by
  intro q hq
  obtain ⟨e, he, rfl⟩ := ((oceanEdges_spec edgeList).2 q).mp hq
  have := h e he
  unfold ordered
  simp only
  omega

theorem arrays_ends {edgeList : List (Nat × Nat)} :
    ∀ q ∈ (oceanArrays edgeList).2, q.1 ∈ (oceanArrays edgeList).1 ∧ q.2 ∈ (oceanArrays edgeList).1 := by
  intro q hq
  obtain ⟨e, he, rfl⟩ := ((oceanEdges_spec edgeList).2 q).mp hq
  have hV := (oceanNodes_spec edgeList).2
  have h1 : e.1 ∈ (oceanArrays edgeList).1 := (hV _).mpr ⟨e, he, .inl rfl⟩
  have h2 : e.2 ∈ (oceanArrays edgeList).1 := (hV _).mpr ⟨e, he, .inr rfl⟩
  unfold ordered
  simp only
  constructor
  · rcases Nat.le_total e.1 e.2 with h | h
    · rw [Nat.min_eq_left h]; exact h1
    · rw [Nat.min_eq_right h]; exact h2
  · rcases Nat.le_total e.1 e.2 with h | h
    · rw [Nat.max_eq_right h]; exact h2
    · rw [Nat.max_eq_left h]; exact h1

/-- **C42** What the arrays of the ocean dataset hold: every node of an edge once, every edge once with its smaller
end first, numbered by the dictionary; the matrices have a row for every node and a column for every edge, which is
-1 at its smaller and 1 at its larger end. -/
theorem C42_arrays (edgeList : List (Nat × Nat)) (hloop : LoopFree edgeList) (V : List Nat) (E : List (Nat × Nat))
    (h : oceanArrays edgeList = (V, E)) :
    V.Nodup ∧ (∀ v, v ∈ V ↔ ∃ e ∈ edgeList, v = e.1 ∨ v = e.2) ∧
    E.Nodup ∧ (∀ a b, (a, b) ∈ E ↔ a < b ∧ ((a, b) ∈ edgeList ∨ (b, a) ∈ edgeList)) ∧
    (∀ q e, Dict.get (edgeNumbers E) q = .ok e ↔ E[e]? = some q) ∧
    ∃ B1, incidenceMatrix V E = .ok B1 ∧ B1.rows = V.length ∧ B1.cols = E.length ∧
      ∀ (v e w a b : Nat), V[v]? = some w → E[e]? = some (a, b) →
        (B1.entry v e = 1 ↔ w = b) ∧ (B1.entry v e = -1 ↔ w = a) ∧ (B1.entry v e = 0 ↔ w ≠ a ∧ w ≠ b) := by
  have hV : V = (oceanArrays edgeList).1 := by rw [h]
  have hE : E = (oceanArrays edgeList).2 := by rw [h]
  subst hV hE
  refine ⟨(oceanNodes_spec edgeList).1, (oceanNodes_spec edgeList).2, (oceanEdges_spec edgeList).1, ?_,
    (oceanNumbers edgeList).get, ?_⟩
  · intro a b
    constructor
    · intro hq
      have hlt := arrays_lt hloop _ hq
      simp only at hlt
      exact ⟨hlt, ordered_mem_arrays.mp (by rw [ordered_of_le hlt.le]; exact hq)⟩
    · rintro ⟨hlt, hm⟩
      have := ordered_mem_arrays.mpr hm
      rwa [ordered_of_le hlt.le] at this
  · obtain ⟨B, hB⟩ := incidence_ok (arrays_ends (edgeList := edgeList))
    obtain ⟨r, c, -, -⟩ := incidence_done hB
    have hne := incidence_nodeEdges (oceanNodes_spec edgeList).1 hB
    refine ⟨B, hB, r, c, ?_⟩
    intro v e w a b hv he
    have hlt := arrays_lt hloop _ (List.mem_of_getElem? he)
    rw [hne.entry v e _ (by rw [r]; exact lt_of_get hv) hlt he, hv]
    unfold nodeEdge
    simp only [Option.getD_some] at hlt ⊢
    by_cases hb : w = b
    · subst hb
      simp
      omega
    · by_cases ha : w = a
      · subst ha
        simp [hb]
      · simp [ha, hb]

/-- **C41** The incidence matrices of the ocean dataset multiply to zero too, whenever they can be built. -/
theorem C41_ocean_boundary_of_a_boundary_is_zero (edgeList : List (Nat × Nat)) (hloop : LoopFree edgeList)
    (V : List Nat) (E : List (Nat × Nat)) (h : oceanArrays edgeList = (V, E)) (faces : List Tri) (B1 B2 : Mat)
    (hB : incidenceMatrices V E faces (edgeNumbers E) = .ok (B1, B2)) :
    ∃ Z, B1.dot B2 = .ok Z ∧ Z.rows = V.length ∧ Z.cols = faces.length ∧
      ∀ v i, v < V.length → i < faces.length → Z.entry v i = 0 := by
  have hV : V = (oceanArrays edgeList).1 := by rw [h]
  have hE : E = (oceanArrays edgeList).2 := by rw [h]
  subst hV hE
  obtain ⟨B1', b1, hB⟩ := bind_eq_ok.mp hB
  obtain ⟨B2', b2, hB⟩ := bind_eq_ok.mp hB
  obtain ⟨rfl, rfl⟩ := Prod.mk.inj (ok_inj.mp hB)
  obtain ⟨r, c, -, -⟩ := incidence_done b1
  have hne := incidence_nodeEdges (oceanNodes_spec edgeList).1 b1
  obtain ⟨r2, c2, e2⟩ := faces_done (oceanNumbers edgeList) (arrays_lt hloop) b2
  refine ⟨_, Mat.dot_eq (by rw [c, r2]), r, c2, ?_⟩
  intro v i hv hi
  obtain ⟨k1, k2, k3, g1, g2, g3, s1, s2, s3, z⟩ := e2 i _ (List.getElem?_eq_getElem hi)
  have l1 := lt_of_get g1
  have l2 := lt_of_get g2
  have l3 := lt_of_get g3
  have o1 := arrays_lt hloop _ (List.mem_of_getElem? g1)
  have o2 := arrays_lt hloop _ (List.mem_of_getElem? g2)
  have o3 := arrays_lt hloop _ (List.mem_of_getElem? g3)
  simp only at o1 o2 o3
  have n12 : k1 ≠ k2 := by rintro rfl; rw [s2] at s1; rw [g1, Option.some.injEq, Prod.mk.injEq] at g2; omega
  have n13 : k1 ≠ k3 := by rintro rfl; rw [s3] at s1; omega
  have n23 : k2 ≠ k3 := by rintro rfl; rw [s3] at s2; omega
  simp only
  rw [sum_range_three (i := k1) (j := k2) (l := k3) (by omega) (by omega) (by omega) n12 n13 n23
    (fun k a1 a2 a3 => by rw [z k a1 a2 a3, mul_zero])]
  have hv' : v < B1'.rows := by rw [r]; exact hv
  rw [hne.entry v k1 _ hv' o1 g1, hne.entry v k2 _ hv' o2 g2, hne.entry v k3 _ hv' o3 g3, s1, s2, s3]
  unfold nodeEdge
  simp only
  split_ifs <;> omega

/-- **C41** The matrices of the ocean dataset can be built whenever the corners of every face ascend and its sides
are edges. -/
theorem C41_ocean_matrices_succeed (edgeList : List (Nat × Nat)) (V : List Nat) (E : List (Nat × Nat))
    (h : oceanArrays edgeList = (V, E)) (faces : List Tri)
    (hf : ∀ t ∈ faces, t.1 < t.2.1 ∧ t.2.1 < t.2.2 ∧ ∀ u ∈ t.corners, ∀ v ∈ t.corners, u ≠ v →
      (u, v) ∈ edgeList ∨ (v, u) ∈ edgeList) :
    ∃ B1 B2, incidenceMatrices V E faces (edgeNumbers E) = .ok (B1, B2) := by
  have hV : V = (oceanArrays edgeList).1 := by rw [h]
  have hE : E = (oceanArrays edgeList).2 := by rw [h]
  subst hV hE
  obtain ⟨B, hB⟩ := incidence_ok (arrays_ends (edgeList := edgeList))
  have hd := oceanNumbers edgeList
  obtain ⟨B2, h2, -⟩ := foldE_inv (f := faceColumn (edgeNumbers (oceanArrays edgeList).2)) (l := faces.zipIdx)
    (s := Mat.zeros (oceanArrays edgeList).2.length faces.length)
    (fun _ B => B.rows = (oceanArrays edgeList).2.length ∧ B.cols = faces.length) ⟨rfl, rfl⟩ (by
      rintro pre ⟨⟨a, b, c⟩, i⟩ post B hl ⟨i1, i2⟩
      have hget : faces[i]? = some (a, b, c) :=
        List.mem_zipIdx_iff_getElem? (x := ((a, b, c), i)).mp (by rw [hl]; simp)
      have hi := lt_of_get hget
      obtain ⟨h1, h2, h3⟩ := hf _ (List.mem_of_getElem? hget)
      simp only at h1 h2
      have key : ∀ u v, u < v → u ∈ Tri.corners (a, b, c) → v ∈ Tri.corners (a, b, c) →
          ∃ e, Dict.get (edgeNumbers (oceanArrays edgeList).2) (u, v) = .ok e ∧ e < (oceanArrays edgeList).2.length := by
        intro u v huv hu hv
        have := ordered_mem_arrays.mpr (h3 u hu v hv huv.ne)
        rw [ordered_of_le huv.le] at this
        obtain ⟨e, he⟩ := List.getElem?_of_mem this
        exact ⟨e, (hd.get _ _).mpr he, lt_of_get he⟩
      obtain ⟨e1, g1, l1⟩ := key a b h1 (by simp [Tri.corners]) (by simp [Tri.corners])
      obtain ⟨e2, g2, l2⟩ := key b c h2 (by simp [Tri.corners]) (by simp [Tri.corners])
      obtain ⟨e3, g3, l3⟩ := key a c (by omega) (by simp [Tri.corners]) (by simp [Tri.corners])
      unfold faceColumn
      simp only
      rw [g1, ok_bind, g2, ok_bind, g3, ok_bind]
      unfold Mat.set
      rw [if_pos ⟨by omega, by omega⟩, ok_bind]
      simp only
      rw [if_pos ⟨by omega, by omega⟩, ok_bind]
      simp only
      rw [if_pos ⟨by omega, by omega⟩]
      exact ⟨_, rfl, i1, i2⟩)
  exact ⟨B, B2, by unfold incidenceMatrices; rw [hB, ok_bind, h2]; rfl⟩

/-! ### C42 -/

/-- **C42** The flow of a walk is computed exactly if every step is an edge of the graph, in either direction; a walk
that uses a missing edge is rejected with a `KeyError`. -/
theorem C42_accepted_walks (edgeList : List (Nat × Nat)) (V : List Nat) (E : List (Nat × Nat))
    (h : oceanArrays edgeList = (V, E)) (path : List Nat) :
    ((∃ f, pathToFlow path (edgeNumbers E) E.length = .ok f) ↔ AlongEdges edgeList path) ∧
    (¬ AlongEdges edgeList path → pathToFlow path (edgeNumbers E) E.length = .error .key) := by
  have hE : E = (oceanArrays edgeList).2 := by rw [h]
  subst hE
  have hd := oceanNumbers edgeList
  have hbad : ¬ AlongEdges edgeList path →
      pathToFlow path (edgeNumbers (oceanArrays edgeList).2) (oceanArrays edgeList).2.length = .error .key := by
    intro hno
    unfold AlongEdges at hno
    push Not at hno
    obtain ⟨u, v, h1, h2⟩ := hno
    refine addFlows_missing hd ⟨(u, v), h1, ?_⟩ (by simp)
    rw [ordered_mem_arrays]
    tauto
  refine ⟨⟨?_, ?_⟩, hbad⟩
  · rintro ⟨f, hf⟩
    by_contra hno
    rw [hbad hno] at hf
    cases hf
  · intro hfol
    obtain ⟨f, hf, -⟩ := addFlows_ok hd (ms := moves path) (fun m hm => ordered_mem_arrays.mpr (hfol m.1 m.2 hm))
      (f := List.replicate (oceanArrays edgeList).2.length 0) (by simp)
    exact ⟨f, hf⟩

theorem follows_ne {edgeList : List (Nat × Nat)} (hloop : LoopFree edgeList) {path : List Nat}
    (h : AlongEdges edgeList path) : ∀ m ∈ moves path, m.1 ≠ m.2 := by
  rintro ⟨u, v⟩ hm
  rcases h u v hm with h | h
  · exact hloop _ h
  · exact (hloop _ h).symm

/-- **C42** The flow through an edge is the number of times the walk passes it upwards, less the number of times it
passes it downwards. -/
theorem C42_flow_counts_passages (edgeList : List (Nat × Nat)) (hloop : LoopFree edgeList) (V : List Nat)
    (E : List (Nat × Nat)) (h : oceanArrays edgeList = (V, E)) (path : List Nat) (f : List Int)
    (hf : pathToFlow path (edgeNumbers E) E.length = .ok f) :
    f.length = E.length ∧ ∀ (e : Nat) (q : Nat × Nat), E[e]? = some q → f[e]? = some (netPassages path q) := by
  have hfol := (C42_accepted_walks edgeList V E h path).1.mp ⟨f, hf⟩
  have hE : E = (oceanArrays edgeList).2 := by rw [h]
  subst hE
  obtain ⟨-, h2, h3⟩ := addFlows_done (oceanNumbers edgeList) (follows_ne hloop hfol) hf
  exact ⟨h2, fun e q he => h3 e q.1 q.2 he⟩

/-- **C42** The divergence of the flow of a walk is 1 at the last vertex and -1 at the first, and zero elsewhere; for
a closed walk it is zero everywhere. -/
theorem C42_divergence (edgeList : List (Nat × Nat)) (hloop : LoopFree edgeList) (V : List Nat) (E : List (Nat × Nat))
    (h : oceanArrays edgeList = (V, E)) (B1 : Mat) (hB : incidenceMatrix V E = .ok B1) (path : List Nat)
    (f : List Int) (hf : pathToFlow path (edgeNumbers E) E.length = .ok f) :
    (∀ v w, V[v]? = some w →
      divergence B1 f v = indicator (path.getLast? = some w) - indicator (path.head? = some w)) ∧
    (path.head? = path.getLast? → ∀ v, v < V.length → divergence B1 f v = 0) := by
  have hfol := (C42_accepted_walks edgeList V E h path).1.mp ⟨f, hf⟩
  have hV : V = (oceanArrays edgeList).1 := by rw [h]
  have hE : E = (oceanArrays edgeList).2 := by rw [h]
  subst hV hE
  obtain ⟨r, -, -, -⟩ := incidence_done hB
  have hne := incidence_nodeEdges (oceanNodes_spec edgeList).1 hB
  have key : ∀ v w, (oceanArrays edgeList).1[v]? = some w →
      divergence B1 f v = indicator (path.getLast? = some w) - indicator (path.head? = some w) := by
    intro v w hv
    rw [addFlows_divergence (oceanNumbers edgeList) hne (follows_ne hloop hfol) hf v (by rw [r]; exact lt_of_get hv),
      hv]
    exact sum_moves w path
  refine ⟨key, ?_⟩
  intro hclosed v hv
  rw [key v _ (List.getElem?_eq_getElem hv), hclosed, sub_self]

theorem moves_nodup {path : List Nat} (h : path.Nodup) : (moves path).Nodup := by
  induction path with
  | nil => exact List.nodup_nil
  | cons a l ih =>
    cases l with
    | nil => exact List.nodup_nil
    | cons b l =>
      rw [moves_cons, List.nodup_cons]
      rw [List.nodup_cons] at h
      exact ⟨fun hm => h.1 (mem_of_moves hm).1, ih h.2⟩

theorem moves_one_way {path : List Nat} (h : path.Nodup) {a b : Nat} (hab : (a, b) ∈ moves path) :
    (b, a) ∉ moves path := by
  induction path with
  | nil => cases hab
  | cons x l ih =>
    cases l with
    | nil => cases hab
    | cons y l =>
      rw [List.nodup_cons] at h
      rw [moves_cons, List.mem_cons] at hab ⊢
      rintro (h2 | h2)
      · obtain ⟨rfl, rfl⟩ := Prod.mk.inj h2
        rcases hab with h3 | h3
        · obtain ⟨rfl, -⟩ := Prod.mk.inj h3
          exact h.1 (by simp)
        · exact h.1 (mem_of_moves h3).2
      · rcases hab with h3 | h3
        · obtain ⟨rfl, rfl⟩ := Prod.mk.inj h3
          exact h.1 (mem_of_moves h2).2
        · exact ih h.2 h3 h2

/-- **C42** The same for the generated trajectories and the node-edge matrix of the triangulation: the generated flow
is the one of the path, and its divergence is 1 where the path ends, -1 where it starts, and zero elsewhere. -/
theorem C42_generated_trajectories [LinearOrder D] (points : List P) (triangles : List Tri) (G : FlowGraph)
    (B1 B2 : Mat) (hG : graphFromTriangulation points triangles = .ok G)
    (hB : extractBoundaryMatrices G triangles = .ok (B1, B2)) (dist : P → P → D)
    (startRect endRect ckptRect : P → Bool) (draws : List Draw) (x : List Int) (path : List Nat)
    (hrun : generateTrajectory G points dist startRect endRect ckptRect draws = .ok (some (x, path))) :
    pathToFlow path G.tupleToEdge G.edges.length = .ok x ∧
    ∀ v, v < B1.rows → divergence B1 x v = indicator (path.getLast? = some v) - indicator (path.head? = some v) := by
  obtain ⟨-, -, hnd, -, hlen, -, hsteps, hval⟩ :=
    C44_trajectories_are_simple_paths points triangles G hG dist startRect endRect ckptRect draws x path hrun
  obtain ⟨wf, -, -⟩ := FlowGraph.graph_done hG
  obtain ⟨h1, h2⟩ := extract_parts hB
  obtain ⟨r1, c1, -, e1⟩ := edgeColumns_done wf h1
  have hd := wf.numbers
  have htl := FlowGraph.tuples_length (G := G)
  have hne : ∀ m ∈ moves path, m.1 ≠ m.2 := by
    rintro ⟨u, v⟩ hm heq
    simp only at heq
    subst heq
    exact moves_one_way hnd hm hm
  have hmem : ∀ m ∈ moves path, ordered m.1 m.2 ∈ G.tuples := by
    rintro ⟨u, v⟩ hm
    obtain ⟨e, he⟩ := hsteps u v hm
    exact List.mem_of_getElem? (wf.get.mp he)
  obtain ⟨f, hf, -⟩ := addFlows_ok hd hmem (f := List.replicate G.tuples.length 0) (by simp)
  obtain ⟨-, f2, f3⟩ := addFlows_done hd hne hf
  have hfx : f = x := by
    apply List.ext_getElem?
    intro e
    by_cases he : e < G.tuples.length
    · obtain ⟨q, hq⟩ : ∃ q, G.tuples[e]? = some q := ⟨_, List.getElem?_eq_getElem he⟩
      obtain ⟨a, b⟩ := q
      rw [f3 e a b hq, hval e a b (wf.get.mpr hq)]
      have hcount : ∀ m : Nat × Nat, ((moves path).count m : Int) = if m ∈ moves path then 1 else 0 := by
        intro m
        rw [List.Nodup.count (moves_nodup hnd)]
        split <;> rfl
      rw [hcount, hcount]
      by_cases ha : (a, b) ∈ moves path
      · rw [if_pos ha, if_neg (moves_one_way hnd ha), if_pos ha]
        rfl
      · rw [if_neg ha, if_neg ha]
        split <;> rfl
    · rw [List.getElem?_eq_none (by omega), List.getElem?_eq_none (by omega)]
  subst hfx
  refine ⟨by unfold pathToFlow; rw [← htl]; exact hf, ?_⟩
  intro v hv
  have hnE : NodeEdges G.tuples B1 id := ⟨by rw [c1, htl], fun v e q _ _ he => e1 v e q he⟩
  rw [addFlows_divergence hd hnE hne hf v hv]
  exact sum_moves v path

/-! ### C43 -/

/-- **C43** Stripping keeps the first and the last vertex, uses only steps of the path, passes every edge as often in
total, never returns at once, and stripping again changes nothing. -/
theorem C43_stripping (path : List Nat) :
    (stripPath path).head? = path.head? ∧ (stripPath path).getLast? = path.getLast? ∧
    (∀ m ∈ moves (stripPath path), m ∈ moves path) ∧
    (∀ q, netPassages (stripPath path) q = netPassages path q) ∧
    NoReturn (stripPath path) ∧ stripPath (stripPath path) = stripPath path := by
  have h := strip_inv path
  have hn : NoReturn (stripPath path) := h.noReturn.reverse
  refine ⟨?_, ?_, h.moves, h.net, hn, ?_⟩
  · unfold stripPath
    rw [List.head?_reverse]
    exact h.first
  · unfold stripPath
    rw [List.getLast?_reverse]
    exact h.last
  · have := strip_noReturn hn
    show ((stripPath path).foldl stripStep []).reverse = _
    rw [this, List.reverse_reverse]

/-- **C43** A walk without immediate returns is left alone. -/
theorem C43_nothing_to_strip (path : List Nat) : stripPath path = path ↔ NoReturn path := by
  constructor
  · intro h
    rw [← h]
    exact (C43_stripping path).2.2.2.2.1
  · intro h
    unfold stripPath
    rw [strip_noReturn h, List.reverse_reverse]

/-- **C43** The stripped walk has the flow of the walk. -/
theorem C43_same_flow (edgeList : List (Nat × Nat)) (hloop : LoopFree edgeList) (V : List Nat) (E : List (Nat × Nat))
    (h : oceanArrays edgeList = (V, E)) (path : List Nat) (f : List Int)
    (hf : pathToFlow path (edgeNumbers E) E.length = .ok f) :
    pathToFlow (stripPath path) (edgeNumbers E) E.length = .ok f := by
  obtain ⟨-, -, hm, hnet, -, -⟩ := C43_stripping path
  have hfol := (C42_accepted_walks edgeList V E h path).1.mp ⟨f, hf⟩
  obtain ⟨g, hg⟩ := (C42_accepted_walks edgeList V E h (stripPath path)).1.mpr (fun u v huv => hfol u v (hm _ huv))
  rw [hg, ok_inj]
  obtain ⟨l1, v1⟩ := C42_flow_counts_passages edgeList hloop V E h path f hf
  obtain ⟨l2, v2⟩ := C42_flow_counts_passages edgeList hloop V E h _ g hg
  apply List.ext_getElem?
  intro e
  by_cases he : e < E.length
  · rw [v1 e _ (List.getElem?_eq_getElem he), v2 e _ (List.getElem?_eq_getElem he), hnet]
  · rw [List.getElem?_eq_none (by omega), List.getElem?_eq_none (by omega)]

/-! ### Examples -/

/-- Two triangles at a common side, and an edge given twice. -/
def driftEdges : List (Nat × Nat) := [(3, 1), (0, 1), (1, 2), (2, 0), (1, 0), (2, 3)]

example : LoopFree driftEdges ∧ oceanArrays driftEdges = ([0, 1, 2, 3], [(0, 2), (0, 1), (1, 2), (1, 3), (2, 3)]) := by
  unfold LoopFree
  decide +kernel

/-- A walk with a nested detour, stripped, with its flow. -/
example : (do
    let (_, E) := oceanArrays driftEdges
    let f ← pathToFlow [0, 1, 2, 3, 2, 1, 3] (edgeNumbers E) E.length
    return (f, stripPath [0, 1, 2, 3, 2, 1, 3]) : Py _) = .ok ([0, 1, 0, 1, 0], [0, 1, 3]) := by
  decide +kernel

/-- The example in the code, and a walk along a missing edge. -/
example : stripPath [0, 1, 2, 3, 2, 3, 4, 5] = [0, 1, 2, 3, 4, 5] ∧
    pathToFlow [0, 3] (edgeNumbers (oceanArrays driftEdges).2) 5 = .error .key := by
  decide +kernel

/-- The two faces. -/
example : ∀ t ∈ ([(0, 1, 2), (1, 2, 3)] : List Tri), t.1 < t.2.1 ∧ t.2.1 < t.2.2 ∧ ∀ u ∈ t.corners, ∀ v ∈ t.corners, u ≠ v →
      (u, v) ∈ driftEdges ∨ (v, u) ∈ driftEdges := by
  decide

/-- A face whose corners do not ascend is not found. -/
example : (match incidenceMatrices [0, 1, 2, 3] (oceanArrays driftEdges).2 [(1, 0, 2)]
    (edgeNumbers (oceanArrays driftEdges).2) with | .error e => some e | .ok _ => none) = some .key := by
  decide +kernel

end Verif
