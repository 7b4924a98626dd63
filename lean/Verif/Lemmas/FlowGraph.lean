import Verif.Model.Flow
import Verif.Lemmas.Lists
import Verif.Lemmas.Cochains
import Verif.Lemmas.Assemble
import Mathlib.Algebra.BigOperators.Group.List.Basic
import Mathlib.Tactic.Ring

/-!
# Lemmas about the graph of a triangulation and its boundary matrices
-/

namespace Verif

variable {P A S : Type}

/-- A loop that ended keeps an invariant on the items done so far. -/
theorem foldE_done {f : S → A → Py S} (I : List A → S → Prop) {l : List A} {s s' : S} (hrun : foldE f s l = .ok s')
    (h0 : I [] s)
    (h : ∀ pre a post s s', l = pre ++ a :: post → I pre s → f s a = .ok s' → I (pre ++ [a]) s') : I l s' := by
  have key : ∀ (post pre : List A) (s : S), l = pre ++ post → I pre s → foldE f s post = .ok s' → I l s' := by
    intro post
    induction post with
    | nil =>
      intro pre s hl hs hr
      rw [List.append_nil] at hl
      subst hl
      simp only [foldE, ok_inj] at hr
      rwa [← hr]
    | cons a post ih =>
      intro pre s hl hs hr
      simp only [foldE] at hr
      obtain ⟨s1, h1, h2⟩ := bind_eq_ok.mp hr
      exact ih (pre ++ [a]) s1 (by rw [hl, List.append_assoc]; rfl) (h pre a post s s1 hl hs h1) h2
  exact key l [] s rfl h0 hrun

/-! ### Sums -/

section

variable {M : Type} [AddCommMonoid M]

theorem sum_range_single (n e : Nat) (c : M) :
    ((List.range n).map fun k => if k = e then c else 0).sum = if e < n then c else 0 := by
  induction n with
  | zero => rfl
  | succ n ih =>
    rw [List.range_succ, List.map_append, List.sum_append, ih]
    by_cases h : e = n
    · subst h; simp
    · by_cases h2 : e < n
      · simp [h2, Ne.symm h, Nat.lt_succ_of_lt h2]
      · have : ¬ e < n + 1 := by omega
        simp [h2, this, Ne.symm h]

theorem sum_range_two {n i j : Nat} {f : Nat → M} (hi : i < n) (hj : j < n) (hij : i ≠ j)
    (h : ∀ k, k ≠ i → k ≠ j → f k = 0) : ((List.range n).map f).sum = f i + f j := by
  have hf : f = fun k => (if k = i then f i else 0) + (if k = j then f j else 0) := by
    funext k
    by_cases h1 : k = i
    · subst h1; simp [hij]
    · by_cases h2 : k = j
      · subst h2; simp [h1]
      · simp [h1, h2, h k h1 h2]
  rw [hf, List.sum_map_add, sum_range_single, sum_range_single, if_pos hi, if_pos hj]
  simp [hij, Ne.symm hij]

theorem sum_range_three {n i j l : Nat} {f : Nat → M} (hi : i < n) (hj : j < n) (hl : l < n) (hij : i ≠ j)
    (hil : i ≠ l) (hjl : j ≠ l) (h : ∀ k, k ≠ i → k ≠ j → k ≠ l → f k = 0) :
    ((List.range n).map f).sum = f i + f j + f l := by
  have hf : f = fun k => ((if k = i then f i else 0) + (if k = j then f j else 0)) + (if k = l then f l else 0) := by
    funext k
    by_cases h1 : k = i
    · subst h1; simp [hij, hil]
    · by_cases h2 : k = j
      · subst h2; simp [h1, hjl]
      · by_cases h3 : k = l
        · subst h3; simp [h1, h2]
        · simp [h1, h2, h3, h k h1 h2 h3]
  rw [hf, List.sum_map_add, List.sum_map_add, sum_range_single, sum_range_single, sum_range_single, if_pos hi,
    if_pos hj, if_pos hl]
  simp [hij, Ne.symm hij, hil, Ne.symm hil, hjl, Ne.symm hjl]

end

theorem sum_pos_of_mem {l : List Nat} {a : Nat} (h : a ∈ l) (ha : 0 < a) : 0 < l.sum := by
  induction l with
  | nil => simp at h
  | cons b l ih =>
    rw [List.sum_cons]
    rcases List.mem_cons.mp h with rfl | h
    · omega
    · have := ih h; omega

/-! ### The graph -/

theorem ordered_comm (u v : Nat) : ordered u v = ordered v u := by
  unfold ordered; rw [Nat.min_comm, Nat.max_comm]

theorem ordered_eq_iff {u v u' v' : Nat} :
    ordered u v = ordered u' v' ↔ (u = u' ∧ v = v') ∨ (u = v' ∧ v = u') := by
  unfold ordered
  rw [Prod.mk.injEq]
  omega

theorem ordered_of_le {u v : Nat} (h : u ≤ v) : ordered u v = (u, v) := by
  unfold ordered
  rw [Nat.min_eq_left h, Nat.max_eq_right h]

namespace FlowGraph

/-- The edges, each with its smaller end first. -/
def tuples (G : FlowGraph) : List (Nat × Nat) := G.edges.map fun e => ordered e.1 e.2

/-- The dictionaries describe the edges. -/
structure Wf (G : FlowGraph) : Prop where
  idx : G.edgeIdx = G.edges.length
  e2t : ∀ i : Nat, G.edgeToTuple.get? i = G.tuples[i]?
  t2e : G.tupleToEdge = G.tuples.zipIdx
  nodup : G.tuples.Nodup
  nodes : G.nodes.Nodup
  ends : ∀ e ∈ G.edges, e.1 ∈ G.nodes ∧ e.2 ∈ G.nodes

theorem wf_empty : ({} : FlowGraph).Wf :=
  ⟨rfl, fun _ => rfl, rfl, List.nodup_nil, List.nodup_nil, by simp⟩

theorem hasEdge_iff {G : FlowGraph} {u v : Nat} : G.hasEdge u v = true ↔ ordered u v ∈ G.tuples := by
  unfold hasEdge tuples
  rw [Bool.or_eq_true, List.contains_iff_mem, List.contains_iff_mem, List.mem_map]
  constructor
  · rintro (h | h)
    · exact ⟨_, h, rfl⟩
    · exact ⟨_, h, ordered_comm _ _⟩
  · rintro ⟨⟨a, b⟩, h, he⟩
    rcases ordered_eq_iff.mp he with ⟨h1, h2⟩ | ⟨h1, h2⟩
    · simp only at h1 h2; subst h1 h2; exact .inl h
    · simp only at h1 h2; subst h1 h2; exact .inr h

theorem mem_addNode {G : FlowGraph} {v w : Nat} : w ∈ (G.addNode v).nodes ↔ w ∈ G.nodes ∨ w = v := by
  unfold addNode
  split
  · next h =>
    rw [List.contains_iff_mem] at h
    constructor
    · exact .inl
    · rintro (h' | rfl)
      · exact h'
      · exact h
  · simp

theorem addNode_nodup {G : FlowGraph} {v : Nat} (h : G.nodes.Nodup) : (G.addNode v).nodes.Nodup := by
  unfold addNode
  split
  · exact h
  · next hn =>
    rw [List.contains_iff_mem] at hn
    simp only
    rw [List.nodup_append]
    refine ⟨h, by simp, ?_⟩
    intro a ha b hb
    rw [List.mem_singleton] at hb
    rintro rfl
    exact hn (hb ▸ ha)

theorem addNode_same {G : FlowGraph} {v : Nat} : (G.addNode v).edges = G.edges ∧
    (G.addNode v).edgeToTuple = G.edgeToTuple ∧ (G.addNode v).tupleToEdge = G.tupleToEdge ∧
    (G.addNode v).edgeIdx = G.edgeIdx := by
  unfold addNode
  split <;> exact ⟨rfl, rfl, rfl, rfl⟩

theorem addNode_wf {G : FlowGraph} {v : Nat} (h : G.Wf) : (G.addNode v).Wf := by
  obtain ⟨h1, h2, h3, h4⟩ := addNode_same (G := G) (v := v)
  have ht : (G.addNode v).tuples = G.tuples := by unfold tuples; rw [h1]
  exact ⟨by rw [h4, h1]; exact h.idx, by rw [h2, ht]; exact h.e2t, by rw [h3, ht]; exact h.t2e,
    by rw [ht]; exact h.nodup, addNode_nodup h.nodes,
    by rw [h1]; exact fun e he => ⟨mem_addNode.mpr (.inl (h.ends e he).1), mem_addNode.mpr (.inl (h.ends e he).2)⟩⟩

/-- Adding a pair of corners. -/
theorem addPair_ok {G : FlowGraph} (h : G.Wf) (p : Nat × Nat) :
    ∃ G', G.addPair p = .ok G' ∧ G'.Wf ∧ (∀ w, w ∈ G'.nodes ↔ w ∈ G.nodes ∨ w = p.1 ∨ w = p.2) ∧
      (∀ q, q ∈ G'.tuples ↔ q ∈ G.tuples ∨ q = ordered p.1 p.2) := by
  obtain ⟨u, v⟩ := p
  by_cases he : G.hasEdge u v = true
  · have hm := hasEdge_iff.mp he
    have hm' : G.hasEdge v u = true := by rw [hasEdge_iff, ordered_comm]; exact hm
    refine ⟨G, ?_, h, ?_, ?_⟩
    · unfold addPair
      simp only [he, if_true, hm', pyAssert]
      rfl
    · intro w
      obtain ⟨⟨a, b⟩, hab, heq⟩ := List.mem_map.mp hm
      obtain ⟨e1, e2⟩ := h.ends _ hab
      simp only at e1 e2
      constructor
      · exact .inl
      · simp only
        rintro (hw | rfl | rfl)
        · exact hw
        · rcases ordered_eq_iff.mp heq with ⟨h1, h2⟩ | ⟨h1, h2⟩
          · simp only at h1; rwa [← h1]
          · simp only at h2; rwa [← h2]
        · rcases ordered_eq_iff.mp heq with ⟨h1, h2⟩ | ⟨h1, h2⟩
          · simp only at h2; rwa [← h2]
          · simp only at h1; rwa [← h1]
    · intro q
      constructor
      · exact .inl
      · rintro (hq | rfl)
        · exact hq
        · exact hm
  · have hn : ordered u v ∉ G.tuples := fun hm => he (hasEdge_iff.mpr hm)
    obtain ⟨H, hH⟩ : ∃ H, H = (G.addNode u).addNode v := ⟨_, rfl⟩
    have hHwf : H.Wf := by rw [hH]; exact addNode_wf (addNode_wf h)
    have hHedges : H.edges = G.edges := by
      rw [hH, (addNode_same (G := G.addNode u)).1, (addNode_same (G := G)).1]
    have hHt : H.tuples = G.tuples := by unfold tuples; rw [hHedges]
    have hHn : ∀ w, w ∈ H.nodes ↔ w ∈ G.nodes ∨ w = u ∨ w = v := by
      intro w
      rw [hH, mem_addNode, mem_addNode, or_assoc]
    obtain ⟨G', hG'⟩ : ∃ G' : FlowGraph, G' = { H with
        edges := H.edges ++ [(u, v)]
        edgeToTuple := H.edgeToTuple.set H.edgeIdx (ordered u v)
        tupleToEdge := H.tupleToEdge.set (ordered u v) H.edgeIdx
        edgeIdx := H.edgeIdx + 1 } := ⟨_, rfl⟩
    have ht : G'.tuples = G.tuples ++ [ordered u v] := by
      rw [hG']
      unfold tuples
      rw [hHedges, List.map_append]
      rfl
    have hmem : ∀ q, q ∈ G'.tuples ↔ q ∈ G.tuples ∨ q = ordered u v := by
      intro q
      rw [ht, List.mem_append, List.mem_singleton]
    have hlen : H.edgeIdx = G.tuples.length := by
      rw [hHwf.idx, hHedges]
      unfold tuples
      rw [List.length_map]
    have hnodes : G'.nodes = H.nodes := by rw [hG']
    refine ⟨G', ?_, ⟨?_, ?_, ?_, ?_, ?_, ?_⟩, ?_, hmem⟩
    · have hrev : G'.hasEdge v u = true := by
        rw [hasEdge_iff, ordered_comm, hmem]
        exact .inr rfl
      unfold addPair
      simp only [he, Bool.false_eq_true, if_false]
      have hE : ({ G.addEdge u v with
          edgeToTuple := (G.addEdge u v).edgeToTuple.set (G.addEdge u v).edgeIdx (ordered u v)
          tupleToEdge := (G.addEdge u v).tupleToEdge.set (ordered u v) (G.addEdge u v).edgeIdx
          edgeIdx := (G.addEdge u v).edgeIdx + 1 } : FlowGraph) = G' := by
        rw [hG', hH]
        rfl
      rw [hE, hrev]
      rfl
    · rw [hG']
      simp only [List.length_append, List.length_cons, List.length_nil]
      rw [hHwf.idx]
    · intro i
      have : G'.edgeToTuple = H.edgeToTuple.set H.edgeIdx (ordered u v) := by rw [hG']
      rw [this, ht, Dict.get?_set, hHwf.e2t, hHt, hlen]
      by_cases hi : i = G.tuples.length
      · subst hi
        simp
      · by_cases hlt : i < G.tuples.length
        · rw [List.getElem?_append_left hlt]
          simp [Ne.symm hi]
        · rw [List.getElem?_append_right (by omega), List.getElem?_eq_none (i := i) (by omega),
            List.getElem?_eq_none (by simp; omega)]
          simp [Ne.symm hi]
    · have : G'.tupleToEdge = H.tupleToEdge.set (ordered u v) H.edgeIdx := by rw [hG']
      rw [this, hHwf.t2e, hHt, hlen, ht]
      exact Dict.set_zipIdx hn
    · rw [ht, List.nodup_append]
      refine ⟨h.nodup, by simp, ?_⟩
      intro a ha b hb
      rw [List.mem_singleton] at hb
      rintro rfl
      exact hn (hb ▸ ha)
    · rw [hnodes]
      exact hHwf.nodes
    · rw [hnodes]
      intro e he
      have : e ∈ H.edges ++ [(u, v)] := by rw [hG'] at he; exact he
      rw [List.mem_append, List.mem_singleton] at this
      rcases this with h1 | rfl
      · exact hHwf.ends e h1
      · exact ⟨(hHn u).mpr (.inr (.inl rfl)), (hHn v).mpr (.inr (.inr rfl))⟩
    · intro w
      rw [hnodes]
      exact hHn w

/-- The pairs of corners of a triangle. -/
def sides (t : Tri) : List (Nat × Nat) := [(t.1, t.2.1), (t.1, t.2.2), (t.2.1, t.2.2)]

theorem addPairs_ok {G : FlowGraph} (h : G.Wf) (t : Tri) :
    ∃ G', foldE addPair G (sides t) = .ok G' ∧ G'.Wf ∧ (∀ w, w ∈ G'.nodes ↔ w ∈ G.nodes ∨ w ∈ t.corners) ∧
      (∀ q, q ∈ G'.tuples ↔ q ∈ G.tuples ∨ ∃ p ∈ sides t, q = ordered p.1 p.2) := by
  obtain ⟨a, b, c⟩ := t
  obtain ⟨G1, e1, w1, n1, t1⟩ := addPair_ok h (a, b)
  obtain ⟨G2, e2, w2, n2, t2⟩ := addPair_ok w1 (a, c)
  obtain ⟨G3, e3, w3, n3, t3⟩ := addPair_ok w2 (b, c)
  refine ⟨G3, ?_, w3, ?_, ?_⟩
  · simp only [sides, foldE, e1, ok_bind, e2, e3]
  · intro w
    rw [n3, n2, n1]
    simp only [Tri.corners, List.mem_cons, List.not_mem_nil, or_false]
    tauto
  · intro q
    rw [t3, t2, t1]
    simp only [sides, List.mem_cons, List.not_mem_nil, or_false, exists_eq_or_imp, exists_eq_left]
    tauto

theorem addCorner_done {points : List P} {t : Tri} {G G' : FlowGraph} {v : Nat} (h : G.Wf) (hv : v ∈ t.corners)
    (hrun : addCorner points t G v = .ok G') : G'.Wf ∧ (∀ w, w ∈ G'.nodes ↔ w ∈ G.nodes ∨ w ∈ t.corners) ∧
      (∀ q, q ∈ G'.tuples ↔ q ∈ G.tuples ∨ ∃ p ∈ sides t, q = ordered p.1 p.2) := by
  unfold addCorner at hrun
  obtain ⟨H, hH, hfold⟩ := bind_eq_ok.mp hrun
  have hprops : H.Wf ∧ (∀ w, w ∈ H.nodes ↔ w ∈ G.nodes ∨ w ∈ G.nodes ∨ w = v) ∧ H.tuples = G.tuples ∨
      (H = G) := by
    unfold ensureNode at hH
    split at hH
    · right; rw [ok_inj] at hH; exact hH.symm
    · left
      obtain ⟨p, -, hH⟩ := bind_eq_ok.mp hH
      rw [pure_eq_ok, ok_inj] at hH
      rw [← hH]
      refine ⟨addNode_wf h, fun w => ?_, ?_⟩
      · rw [mem_addNode]; tauto
      · unfold tuples; rw [addNode_same.1]
  rcases hprops with ⟨p1, p2, p3⟩ | rfl
  · obtain ⟨K, k1, k2, k3, k4⟩ := addPairs_ok p1 t
    rw [show foldE addPair H [(t.1, t.2.1), (t.1, t.2.2), (t.2.1, t.2.2)] = .ok K from k1, ok_inj] at hfold
    subst hfold
    refine ⟨k2, fun w => ?_, fun q => by rw [k4, p3]⟩
    rw [k3, p2]
    constructor
    · rintro ((h | h | rfl) | h)
      · exact .inl h
      · exact .inl h
      · exact .inr hv
      · exact .inr h
    · rintro (h | h)
      · exact .inl (.inl h)
      · exact .inr h
  · obtain ⟨K, k1, k2, k3, k4⟩ := addPairs_ok h t
    rw [show foldE addPair H [(t.1, t.2.1), (t.1, t.2.2), (t.2.1, t.2.2)] = .ok K from k1, ok_inj] at hfold
    subst hfold
    exact ⟨k2, k3, k4⟩

theorem addCorner_ok {points : List P} {t : Tri} {G : FlowGraph} {v : Nat} (h : G.Wf) (hv : v < points.length) :
    ∃ G', addCorner points t G v = .ok G' := by
  unfold addCorner ensureNode
  split
  · obtain ⟨K, k1, -⟩ := addPairs_ok h t
    exact ⟨K, k1⟩
  · rw [getAt_eq_ok.mpr (List.getElem?_eq_getElem hv)]
    obtain ⟨K, k1, -⟩ := addPairs_ok (addNode_wf (v := v) h) t
    exact ⟨K, k1⟩

theorem addTriangle_done {points : List P} {t : Tri} {G G' : FlowGraph} (h : G.Wf)
    (hrun : addTriangle points G t = .ok G') : G'.Wf ∧ (∀ w, w ∈ G'.nodes ↔ w ∈ G.nodes ∨ w ∈ t.corners) ∧
      (∀ q, q ∈ G'.tuples ↔ q ∈ G.tuples ∨ ∃ p ∈ sides t, q = ordered p.1 p.2) := by
  unfold addTriangle at hrun
  simp only [Tri.corners, foldE] at hrun
  obtain ⟨G1, e1, hrun⟩ := bind_eq_ok.mp hrun
  obtain ⟨G2, e2, hrun⟩ := bind_eq_ok.mp hrun
  obtain ⟨G3, e3, hrun⟩ := bind_eq_ok.mp hrun
  rw [ok_inj] at hrun
  subst hrun
  obtain ⟨w1, n1, t1⟩ := addCorner_done h (by simp [Tri.corners]) e1
  obtain ⟨w2, n2, t2⟩ := addCorner_done w1 (by simp [Tri.corners]) e2
  obtain ⟨w3, n3, t3⟩ := addCorner_done w2 (by simp [Tri.corners]) e3
  refine ⟨w3, fun w => ?_, fun q => ?_⟩
  · rw [n3, n2, n1]; tauto
  · rw [t3, t2, t1]; tauto

theorem addTriangle_ok {points : List P} {t : Tri} {G : FlowGraph} (h : G.Wf)
    (ht : ∀ v ∈ t.corners, v < points.length) : ∃ G', addTriangle points G t = .ok G' := by
  unfold addTriangle
  simp only [Tri.corners, foldE]
  simp only [Tri.corners, List.mem_cons, List.not_mem_nil, or_false, forall_eq_or_imp, forall_eq] at ht
  obtain ⟨G1, e1⟩ := addCorner_ok (t := t) h ht.1
  have w1 := (addCorner_done h (by simp [Tri.corners]) e1).1
  obtain ⟨G2, e2⟩ := addCorner_ok (t := t) w1 ht.2.1
  have w2 := (addCorner_done w1 (by simp [Tri.corners]) e2).1
  obtain ⟨G3, e3⟩ := addCorner_ok (t := t) w2 ht.2.2
  exact ⟨G3, by rw [e1, ok_bind, e2, ok_bind, e3, ok_bind]⟩

/-- The graph has exactly the corners and the sides of the triangles. -/
theorem graph_done {points : List P} {triangles : List Tri} {G : FlowGraph}
    (hrun : graphFromTriangulation points triangles = .ok G) :
    G.Wf ∧ (∀ w, w ∈ G.nodes ↔ ∃ t ∈ triangles, w ∈ t.corners) ∧
      (∀ q, q ∈ G.tuples ↔ ∃ t ∈ triangles, ∃ p ∈ sides t, q = ordered p.1 p.2) := by
  refine foldE_done (fun pre (G : FlowGraph) => G.Wf ∧ (∀ w, w ∈ G.nodes ↔ ∃ t ∈ pre, w ∈ t.corners) ∧
      (∀ q, q ∈ G.tuples ↔ ∃ t ∈ pre, ∃ p ∈ sides t, q = ordered p.1 p.2)) hrun ?_ ?_
  · exact ⟨wf_empty, by simp, by simp [tuples]⟩
  · rintro pre t post G G' - ⟨h1, h2, h3⟩ hs
    obtain ⟨k1, k2, k3⟩ := addTriangle_done h1 hs
    refine ⟨k1, fun w => ?_, fun q => ?_⟩
    · rw [k2, h2]
      simp only [List.mem_append, List.mem_singleton, or_and_right, exists_or, exists_eq_left]
    · rw [k3, h3]
      simp only [List.mem_append, List.mem_singleton, or_and_right, exists_or, exists_eq_left]

theorem graph_ok {points : List P} {triangles : List Tri}
    (h : ∀ t ∈ triangles, ∀ v ∈ t.corners, v < points.length) :
    ∃ G, graphFromTriangulation points triangles = .ok G := by
  obtain ⟨G, h1, -⟩ := foldE_inv (f := addTriangle points) (l := triangles) (s := ({} : FlowGraph))
    (fun _ G => G.Wf) wf_empty (by
      rintro pre t post G rfl hG
      obtain ⟨G', hG'⟩ := addTriangle_ok hG (h t (by simp))
      exact ⟨G', hG', (addTriangle_done hG hG').1⟩)
  exact ⟨G, h1⟩

theorem tuples_length {G : FlowGraph} : G.tuples.length = G.edges.length := by
  unfold tuples; rw [List.length_map]

theorem Wf.get {G : FlowGraph} (h : G.Wf) {q : Nat × Nat} {e : Nat} :
    Dict.get G.tupleToEdge q = .ok e ↔ G.tuples[e]? = some q := by
  rw [Dict.get_eq_ok, h.t2e, Dict.get?_zipIdx]
  constructor
  · intro he
    split at he
    · next hm =>
      rw [Nat.add_zero, Option.some.injEq] at he
      exact (idxOf_iff h.nodup hm).mp he
    · cases he
  · intro he
    have hm := List.mem_of_getElem? he
    rw [if_pos hm, Nat.add_zero, Option.some.injEq]
    exact (idxOf_iff h.nodup hm).mpr he

end FlowGraph

end Verif
