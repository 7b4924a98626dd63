import Verif.Model.Faces
import Verif.Props.Boundary
import Verif.Props.Ocean
import Verif.Props.Drifters
import Verif.Props.Convert
import Verif.Props.CellNet

/-! # The faces of a boundary matrix (C107) -/

namespace Verif

variable {P : Type}

theorem sorted_three {l : List Nat} (hs : l.Pairwise (· ≤ ·)) (hn : l.Nodup) {a b c : Nat} (hab : a < b) (hbc : b < c)
    (hm : ∀ v, v ∈ l ↔ v = a ∨ v = b ∨ v = c) : l = [a, b, c] := by
  refine List.Perm.eq_of_pairwise (le := (· ≤ ·)) (fun x y _ _ h1 h2 => Nat.le_antisymm h1 h2) hs ?_ ?_
  · simp; omega
  · refine (List.perm_ext_iff_of_nodup hn ?_).mpr fun v => by simp [hm]
    simp; omega

/-- The face of a column is the sorted list of the ends of its edges. -/
theorem faceOfColumn_ok {B2 : Mat} {E : List (Nat × Nat)} {j : Nat} (hE : ∀ i < B2.rows, B2.entry i j ≠ 0 → i < E.length) :
    ∃ l, faceOfColumn B2 E j = .ok l ∧ l.Pairwise (· ≤ ·) ∧ l.Nodup ∧
      ∀ v, v ∈ l ↔ ∃ i < B2.rows, B2.entry i j ≠ 0 ∧ ∃ e, E[i]? = some e ∧ (v = e.1 ∨ v = e.2) := by
  obtain ⟨edges, he⟩ : ∃ edges, mapE (getAt E) ((List.range B2.rows).filter fun i => decide (B2.entry i j ≠ 0)) = .ok edges := by
    refine mapE_exists fun i hi => ?_
    simp only [List.mem_filter, List.mem_range, decide_eq_true_eq] at hi
    exact ⟨_, getAt_eq_ok.mpr (List.getElem?_eq_getElem (hE i hi.1 hi.2))⟩
  refine ⟨_, by unfold faceOfColumn; rw [he]; rfl, List.pairwise_insertionSort _ _, ?_, fun v => ?_⟩
  · exact (List.perm_insertionSort _ _).nodup_iff.mpr (nodup_firsts _)
  · rw [(List.perm_insertionSort _ _).mem_iff, mem_firsts, List.mem_flatMap]
    have hf := mapE_eq_ok_iff.mp he
    constructor
    · rintro ⟨e, hm, hv⟩
      obtain ⟨i, hi, hg⟩ := forall₂_source hf hm
      simp only [List.mem_filter, List.mem_range, decide_eq_true_eq] at hi
      exact ⟨i, hi.1, hi.2, e, getAt_eq_ok.mp hg, by simpa using hv⟩
    · rintro ⟨i, h1, h2, e, h3, h4⟩
      obtain ⟨e', hm, hg⟩ := forall₂_mem hf (a := i) (by simp [h1, h2])
      rw [getAt_eq_ok.mp hg] at h3
      cases h3
      exact ⟨e, hm, by simpa using h4⟩

theorem facesFromB2_ok {B2 : Mat} {E : List (Nat × Nat)} {A : Type} {q : A → List Nat → Prop} {ts : List A} (hc : B2.cols = ts.length)
    (h : ∀ (j : Nat) (t : A), ts[j]? = some t → ∃ l, faceOfColumn B2 E j = .ok l ∧ q t l) :
    ∃ ls, facesFromB2 B2 E = .ok ls ∧ List.Forall₂ q ts ls := by
  obtain ⟨ls, hls⟩ : ∃ ls, facesFromB2 B2 E = .ok ls := by
    refine mapE_exists fun j hj => ?_
    rw [List.mem_range, hc] at hj
    obtain ⟨l, hl, -⟩ := h j _ (List.getElem?_eq_getElem hj)
    exact ⟨l, hl⟩
  refine ⟨ls, hls, ?_⟩
  have hf := mapE_eq_ok_iff.mp hls
  have hlen := hf.length_eq
  rw [List.length_range, hc] at hlen
  refine List.forall₂_iff_get.mpr ⟨hlen, fun j h1 h2 => ?_⟩
  have := hf.get (i := j) (by rw [List.length_range, hc]; exact h1) h2
  obtain ⟨l, hl, hq⟩ := h j _ (List.getElem?_eq_getElem h1)
  simp only [List.get_eq_getElem, List.getElem_range] at this ⊢
  rw [hl] at this
  rw [← ok_inj.mp this]
  exact hq

/-- **C107** The faces of the ocean dataset are recovered from the boundary matrix made of them: the same corners in the same
order, one face after the other. -/
theorem C107_ocean_faces_are_recovered (edgeList : List (Nat × Nat)) (hloop : LoopFree edgeList) (V : List Nat)
    (E : List (Nat × Nat)) (h : oceanArrays edgeList = (V, E)) (faces : List Tri) (B1 B2 : Mat)
    (hB : incidenceMatrices V E faces (edgeNumbers E) = .ok (B1, B2)) :
    facesFromB2 B2 E = .ok (faces.map Tri.corners) := by
  have hE : E = (oceanArrays edgeList).2 := by rw [h]
  subst hE
  obtain ⟨B1', b1, hB⟩ := bind_eq_ok.mp hB
  obtain ⟨B2', b2, hB⟩ := bind_eq_ok.mp hB
  obtain ⟨rfl, rfl⟩ := Prod.mk.inj (ok_inj.mp hB)
  obtain ⟨r2, c2, e2⟩ := faces_done (oceanNumbers edgeList) (arrays_lt hloop) b2
  obtain ⟨ls, h1, h2⟩ := facesFromB2_ok (q := fun (t : Tri) l => l = t.corners) (E := (oceanArrays edgeList).2) c2 (by
    intro j t ht
    obtain ⟨k1, k2, k3, g1, g2, g3, s1, s2, s3, z⟩ := e2 j t ht
    have o1 := arrays_lt hloop _ (List.mem_of_getElem? g1)
    have o2 := arrays_lt hloop _ (List.mem_of_getElem? g2)
    have l1 := lt_of_get g1
    have l2 := lt_of_get g2
    have l3 := lt_of_get g3
    obtain ⟨l, f1, f2, f3, f4⟩ := faceOfColumn_ok (B2 := B2') (E := (oceanArrays edgeList).2) (j := j) fun i hi _ => by omega
    refine ⟨l, f1, sorted_three f2 f3 o1 o2 fun v => ?_⟩
    rw [f4]
    constructor
    · rintro ⟨i, -, hne, e, he, hv⟩
      by_cases i1 : i = k1
      · subst i1; rw [g1] at he; cases he; clear * - hv; tauto
      · by_cases i2 : i = k2
        · subst i2; rw [g2] at he; cases he; clear * - hv; tauto
        · by_cases i3 : i = k3
          · subst i3; rw [g3] at he; cases he; clear * - hv; tauto
          · exact absurd (z i i1 i2 i3) hne
    · rintro (hv | hv | hv)
      · exact ⟨k1, by omega, by rw [s1]; decide, _, g1, .inl hv⟩
      · exact ⟨k1, by omega, by rw [s1]; decide, _, g1, .inr hv⟩
      · exact ⟨k2, by omega, by rw [s2]; decide, _, g2, .inr hv⟩)
  rw [h1, ok_inj]
  clear * - h2
  induction h2 with
  | nil => rfl
  | cons e _ ih => rw [List.map_cons, e, ih]

/-- **C107** So two lists of faces with the same boundary matrix are the same. -/
theorem C107_the_matrix_determines_the_faces (edgeList : List (Nat × Nat)) (hloop : LoopFree edgeList) (V : List Nat)
    (E : List (Nat × Nat)) (h : oceanArrays edgeList = (V, E)) (faces faces' : List Tri) (B1 B1' B2 : Mat)
    (hB : incidenceMatrices V E faces (edgeNumbers E) = .ok (B1, B2))
    (hB' : incidenceMatrices V E faces' (edgeNumbers E) = .ok (B1', B2)) : faces = faces' := by
  have e1 := C107_ocean_faces_are_recovered edgeList hloop V E h faces B1 B2 hB
  have e2 := C107_ocean_faces_are_recovered edgeList hloop V E h faces' B1' B2 hB'
  rw [e1, ok_inj] at e2
  refine List.map_injective_iff.mpr ?_ e2
  rintro ⟨a, b, c⟩ ⟨a', b', c'⟩ e
  simp only [Tri.corners, List.cons.injEq, and_true] at e
  obtain ⟨rfl, rfl, rfl⟩ := e
  rfl

/-- **C107** From the boundary matrix of a triangulation and its edges the corners of each triangle are recovered, in ascending
order. -/
theorem C107_triangles_are_recovered (points : List P) (triangles : List Tri) (G : FlowGraph) (B1 B2 : Mat)
    (hG : graphFromTriangulation points triangles = .ok G)
    (hB : extractBoundaryMatrices G triangles = .ok (B1, B2)) :
    ∃ edges ls, (∀ q e, Dict.get G.tupleToEdge q = .ok e ↔ edges[e]? = some q) ∧ facesFromB2 B2 edges = .ok ls ∧
      List.Forall₂ (fun (t : Tri) l => l.Perm t.corners ∧ l.Pairwise (· < ·)) triangles ls := by
  obtain ⟨edges, hs, hd, -, -, r2, c2, -, he⟩ := C41_entries points triangles G B1 B2 hG hB
  have hdist : ∀ t ∈ triangles, t.1 ≠ t.2.1 ∧ t.2.1 ≠ t.2.2 ∧ t.2.2 ≠ t.1 := by
    intro t ht
    obtain ⟨wf, -, -⟩ := FlowGraph.graph_done hG
    obtain ⟨-, e2⟩ := (triangleColumns_done wf (extract_parts hB).2).2
    obtain ⟨i, hi⟩ := List.getElem?_of_mem ht
    obtain ⟨k1, k2, k3, c⟩ := e2 i t hi
    exact c.distinct wf
  obtain ⟨ls, h1, h2⟩ := facesFromB2_ok (q := fun (t : Tri) l => l.Perm t.corners ∧ l.Pairwise (· < ·)) (E := edges) c2 (by
    intro j t ht
    have htm := List.mem_of_getElem? ht
    obtain ⟨d1, d2, d3⟩ := hdist t htm
    obtain ⟨l, f1, f2, f3, f4⟩ := faceOfColumn_ok (B2 := B2) (E := edges) (j := j) fun i hi _ => by omega
    have hn : t.corners.Nodup := by
      simp only [Tri.corners, List.nodup_cons, List.mem_cons, List.not_mem_nil, or_false, not_or]
      exact ⟨⟨d1, fun e => d3 e.symm⟩, d2, not_false, List.nodup_nil⟩
    refine ⟨l, f1, (List.perm_ext_iff_of_nodup f3 hn).mpr fun v => ?_, ?_⟩
    · rw [f4]
      constructor
      · rintro ⟨i, -, hne, ⟨a, b⟩, hab, hv⟩
        obtain ⟨-, -, h0⟩ := he i j a b t hab ht
        by_contra hc
        refine hne (h0.mpr ⟨fun hm => hc ?_, fun hm => hc ?_⟩) <;>
        · simp only [Tri.steps, List.mem_cons, List.not_mem_nil, or_false, Prod.mk.injEq] at hm
          rw [Tri.mem_corners]
          rcases hv with rfl | rfl <;> clear * - hm <;> tauto
      · intro hv
        -- a corner and the next one are the ends of an edge
        have key : ∀ u w, u ≠ w → (u, w) ∈ t.steps → ∃ i < B2.rows, B2.entry i j ≠ 0 ∧ ∃ e, edges[i]? = some e ∧ (u = e.1 ∨ u = e.2) := by
          intro u w huw hst
          have hu : u ∈ t.corners ∧ w ∈ t.corners := by
            simp only [Tri.steps, List.mem_cons, List.not_mem_nil, or_false, Prod.mk.injEq] at hst
            rw [Tri.mem_corners, Tri.mem_corners]
            clear * - hst
            tauto
          rcases Nat.lt_or_gt_of_ne huw with hlt | hlt
          · obtain ⟨i, hi⟩ := List.mem_iff_getElem?.mp ((hs.mem u w).mpr ⟨hlt, t, htm, hu.1, hu.2⟩)
            refine ⟨i, by have := lt_of_get hi; omega, ?_, _, hi, .inl rfl⟩
            rw [(he i j u w t hi ht).1.mpr hst]
            decide
          · obtain ⟨i, hi⟩ := List.mem_iff_getElem?.mp ((hs.mem w u).mpr ⟨hlt, t, htm, hu.2, hu.1⟩)
            refine ⟨i, by have := lt_of_get hi; omega, ?_, _, hi, .inr rfl⟩
            rw [(he i j w u t hi ht).2.1.mpr hst]
            decide
        rcases Tri.mem_corners.mp hv with rfl | rfl | rfl
        · exact key _ t.2.1 d1 (by simp [Tri.steps])
        · exact key _ t.2.2 d2 (by simp [Tri.steps])
        · exact key _ t.1 d3 (by simp [Tri.steps])
    · exact (f2.and f3).imp fun h => Nat.lt_of_le_of_ne h.1 h.2)
  exact ⟨edges, ls, hd, h1, h2⟩

/-! ### Examples -/

/-- The two faces of the drifters' example. -/
example : (do
    let (V, E) := oceanArrays driftEdges
    let B ← incidenceMatrices V E [(0, 1, 2), (1, 2, 3)] (edgeNumbers E)
    facesFromB2 B.2 E : Py _) = .ok [[0, 1, 2], [1, 2, 3]] := by
  decide +kernel

/-- The fan, whose triangles are not sorted. -/
example : (do
    let G ← graphFromTriangulation fanPoints fanTriangles
    let B ← extractBoundaryMatrices G fanTriangles
    facesFromB2 B.2 (G.edgeToTuple.map Prod.snd) : Py _) = .ok [[0, 1, 2], [1, 2, 4], [2, 3, 4], [0, 2, 3]] := by
  decide +kernel

/-- With too few edges there is nothing to look up. -/
example : facesFromB2 ⟨2, 1, fun _ _ => 1⟩ [(0, 1)] = .error .index := by decide +kernel

end Verif
