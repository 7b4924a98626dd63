import Verif.Lemmas.Trajectory
import Verif.Props.Boundary

/-!
# Properties of the trajectories of the flow dataset (C44)
-/

namespace Verif

variable {P D : Type}

theorem samplePoint_done {points : List P} {inside : P → Bool} {r i : Nat}
    (h : samplePoint points inside r = .ok i) : ∃ p, points[i]? = some p ∧ inside p = true := by
  have hm := choose_mem h
  obtain ⟨⟨p, j⟩, h1, rfl⟩ := List.mem_map.mp hm
  rw [List.mem_filter, List.mem_zipIdx_iff_getElem?] at h1
  exact ⟨p, h1.1, h1.2⟩

theorem samplePoint_ok {points : List P} {inside : P → Bool} {r : Nat} (h : ∃ p ∈ points, inside p = true) :
    ∃ i, samplePoint points inside r = .ok i := by
  obtain ⟨p, h1, h2⟩ := h
  obtain ⟨j, hj⟩ := List.getElem?_of_mem h1
  refine choose_ok (List.ne_nil_of_mem (a := j) (List.mem_map.mpr ⟨(p, j), ?_, rfl⟩))
  rw [List.mem_filter, List.mem_zipIdx_iff_getElem?]
  exact ⟨hj, h2⟩

section

variable [LinearOrder D] {G : FlowGraph} {points : List P} {dist : P → P → D}
  {startRect endRect ckptRect : P → Bool}

/-- The parts of an attempt that reached its end. -/
theorem attempt_done (wf : G.Wf) {draw : Draw} {x : List Int} {path : List Nat}
    (h : attempt G points dist startRect endRect ckptRect draw = .ok (.done x path)) :
    ∃ start stop ckpt pe pc, (∃ p, points[start]? = some p ∧ startRect p = true) ∧
      points[stop]? = some pe ∧ endRect pe = true ∧ points[ckpt]? = some pc ∧ ckptRect pc = true ∧
      ∃ s, TripInv G points dist pe pc start ckpt draw.coins s ∧ s.vertex = stop ∧ s.x = x ∧ s.path = path := by
  unfold attempt at h
  obtain ⟨start, h1, h⟩ := bind_eq_ok.mp h
  obtain ⟨stop, h2, h⟩ := bind_eq_ok.mp h
  obtain ⟨ckpt, h3, h⟩ := bind_eq_ok.mp h
  obtain ⟨pe, h4, h⟩ := bind_eq_ok.mp h
  obtain ⟨pc, h5, h⟩ := bind_eq_ok.mp h
  rw [getAt_eq_ok] at h4 h5
  obtain ⟨p2, g2, g2'⟩ := samplePoint_done h2
  obtain ⟨p3, g3, g3'⟩ := samplePoint_done h3
  rw [h4] at g2
  rw [h5] at g3
  obtain rfl := Option.some.inj g2
  obtain rfl := Option.some.inj g3
  exact ⟨start, stop, ckpt, pe, pc, samplePoint_done h1, h4, g2', h5, g3', tripLoop_done wf (tripInv_start wf) h⟩

theorem generate_done {draws : List Draw} {x : List Int} {path : List Nat}
    (h : generateTrajectory G points dist startRect endRect ckptRect draws = .ok (some (x, path))) :
    ∃ pre draw post, draws = pre ++ draw :: post ∧
      (∀ d ∈ pre, attempt G points dist startRect endRect ckptRect d = .ok .stuck) ∧
      attempt G points dist startRect endRect ckptRect draw = .ok (.done x path) := by
  induction draws with
  | nil => simp [generateTrajectory] at h
  | cons d ds ih =>
    unfold generateTrajectory at h
    obtain ⟨o, h1, h⟩ := bind_eq_ok.mp h
    cases o with
    | done x' path' =>
      simp only at h
      rw [pure_eq_ok, ok_inj, Option.some.injEq, Prod.mk.injEq] at h
      obtain ⟨rfl, rfl⟩ := h
      exact ⟨[], d, ds, rfl, by simp, h1⟩
    | stuck =>
      obtain ⟨pre, draw, post, rfl, h2, h3⟩ := ih h
      refine ⟨d :: pre, draw, post, rfl, ?_, h3⟩
      intro d' hd'
      rcases List.mem_cons.mp hd' with rfl | hd'
      · exact h1
      · exact h2 d' hd'
    | running => simp [pure_eq_ok] at h

end

/-- **C44** Whatever the random numbers are, a generated trajectory leads from a point in the start rectangle to
a point in the end rectangle along sides of triangles, without visiting a vertex twice; its flow is 1 on the edges
which it runs along upwards, -1 on those which it runs along downwards and 0 on all others. -/
theorem C44_trajectories_are_simple_paths [LinearOrder D] (points : List P) (triangles : List Tri) (G : FlowGraph)
    (hG : graphFromTriangulation points triangles = .ok G) (dist : P → P → D) (startRect endRect ckptRect : P → Bool)
    (draws : List Draw) (x : List Int) (path : List Nat)
    (hrun : generateTrajectory G points dist startRect endRect ckptRect draws = .ok (some (x, path))) :
    (∃ (i : Nat) (p : P), path.head? = some i ∧ points[i]? = some p ∧ startRect p = true) ∧
    (∃ (i : Nat) (p : P), path.getLast? = some i ∧ points[i]? = some p ∧ endRect p = true) ∧
    path.Nodup ∧
    (∀ u v, (u, v) ∈ moves path → ∃ t ∈ triangles, u ∈ t.corners ∧ v ∈ t.corners) ∧
    x.length = G.edges.length ∧
    (∀ e, e < x.length → ∃ q, Dict.get G.tupleToEdge q = .ok e) ∧
    (∀ u v, (u, v) ∈ moves path → ∃ e, Dict.get G.tupleToEdge (min u v, max u v) = .ok e) ∧
    ∀ (e a b : Nat), Dict.get G.tupleToEdge (a, b) = .ok e →
      x[e]? = some (if (a, b) ∈ moves path then 1 else if (b, a) ∈ moves path then -1 else 0) := by
  obtain ⟨wf, -, hm⟩ := FlowGraph.graph_done hG
  obtain ⟨-, draw, -, -, -, h⟩ := generate_done hrun
  obtain ⟨start, stop, ckpt, pe, pc, ⟨p, hp1, hp2⟩, h4, h5, -, -, s, inv, rfl, rfl, rfl⟩ := attempt_done wf h
  refine ⟨⟨start, p, inv.head, hp1, hp2⟩, ⟨s.vertex, pe, by rw [inv.path]; simp, h4, h5⟩, inv.nodup, ?_, ?_, ?_, ?_, ?_⟩
  · intro u v huv
    obtain ⟨t, t1, q, t2, t3⟩ := (hm _).mp (inv.follows _ huv)
    refine ⟨t, t1, ?_⟩
    have hq : q.1 ∈ t.corners ∧ q.2 ∈ t.corners := by
      simp only [FlowGraph.sides, List.mem_cons, List.not_mem_nil, or_false] at t2
      rcases t2 with rfl | rfl | rfl <;> simp [Tri.corners]
    rcases ordered_eq_iff.mp t3 with ⟨e1, e2⟩ | ⟨e1, e2⟩
    · simp only at e1 e2
      rw [e1, e2]; exact hq
    · simp only at e1 e2
      rw [e1, e2]; exact hq.symm
  · rw [inv.len, FlowGraph.tuples_length]
  · intro e he
    rw [inv.len] at he
    exact ⟨_, wf.get.mpr (List.getElem?_eq_getElem he)⟩
  · intro u v huv
    obtain ⟨e, he⟩ := List.getElem?_of_mem (inv.follows _ huv)
    exact ⟨e, wf.get.mpr he⟩
  · intro e a b he
    exact inv.flow e (a, b) (wf.get.mp he)

/-- **C44** The first attempt that reaches its end is returned; every step without a random choice goes to a
nearest vertex not visited before, seen from the checkpoint until it has been visited, and from the end after
that. -/
theorem C44_greedy_steps [LinearOrder D] (points : List P) (triangles : List Tri) (G : FlowGraph)
    (hG : graphFromTriangulation points triangles = .ok G) (dist : P → P → D) (startRect endRect ckptRect : P → Bool)
    (draws : List Draw) (x : List Int) (path : List Nat)
    (hrun : generateTrajectory G points dist startRect endRect ckptRect draws = .ok (some (x, path))) :
    ∃ pre draw post, draws = pre ++ draw :: post ∧
      (∀ d ∈ pre, attempt G points dist startRect endRect ckptRect d = .ok .stuck) ∧
      ∃ (stop ckpt : Nat) (pe pc : P), path.getLast? = some stop ∧ points[stop]? = some pe ∧ endRect pe = true ∧
        points[ckpt]? = some pc ∧ ckptRect pc = true ∧
        ∀ (k u v : Nat), path[k]? = some u → path[k + 1]? = some v → (draw.coins k).1 = false →
          ∀ w, (∃ e, Dict.get G.tupleToEdge (min u w, max u w) = .ok e) → w ∉ path.take (k + 1) →
            ∀ pv pw, points[v]? = some pv → points[w]? = some pw →
              (ckpt ∈ path.take (k + 1) → dist pv pe ≤ dist pw pe) ∧
              (ckpt ∉ path.take (k + 1) → dist pv pc ≤ dist pw pc) := by
  obtain ⟨wf, -, hm⟩ := FlowGraph.graph_done hG
  obtain ⟨pre, draw, post, e1, e2, h⟩ := generate_done hrun
  obtain ⟨start, stop, ckpt, pe, pc, -, h4, h5, h6, h7, s, inv, rfl, rfl, rfl⟩ := attempt_done wf h
  refine ⟨pre, draw, post, e1, e2, s.vertex, ckpt, pe, pc, by rw [inv.path]; simp, h4, h5, h6, h7, ?_⟩
  rintro k u v hu hv hc w ⟨e, he⟩ hw pv pw hpv hpw
  have := inv.greedy k u v hu hv hc w (List.mem_of_getElem? (wf.get.mp he)) hw pv pw hpv hpw
  constructor
  · intro hck
    rwa [if_pos hck] at this
  · intro hck
    rwa [if_neg hck] at this

/-- **C44** On a triangulation with points in all three rectangles no attempt fails, and every attempt ends: it
reaches its end or is stuck. -/
theorem C44_attempts_end [LinearOrder D] (points : List P) (triangles : List Tri)
    (ht : Triangulates points triangles) (dist : P → P → D) (startRect endRect ckptRect : P → Bool)
    (h1 : ∃ p ∈ points, startRect p = true) (h2 : ∃ p ∈ points, endRect p = true)
    (h3 : ∃ p ∈ points, ckptRect p = true) :
    ∃ G, graphFromTriangulation points triangles = .ok G ∧ ∀ draw,
      attempt G points dist startRect endRect ckptRect draw = .ok .stuck ∨
      ∃ x path, attempt G points dist startRect endRect ckptRect draw = .ok (.done x path) := by
  obtain ⟨G, hG⟩ := FlowGraph.graph_ok ht.corners
  obtain ⟨wf, hn, -⟩ := FlowGraph.graph_done hG
  refine ⟨G, hG, fun draw => ?_⟩
  obtain ⟨start, e1⟩ := samplePoint_ok (r := draw.start) h1
  obtain ⟨stop, e2⟩ := samplePoint_ok (r := draw.stop) h2
  obtain ⟨ckpt, e3⟩ := samplePoint_ok (r := draw.ckpt) h3
  obtain ⟨p1, g1, -⟩ := samplePoint_done e1
  obtain ⟨p2, g2, -⟩ := samplePoint_done e2
  obtain ⟨p3, g3, -⟩ := samplePoint_done e3
  have hstart : start ∈ G.nodes := (hn start).mpr (ht.covers start (lt_of_get g1))
  have hpts : ∀ v ∈ G.nodes, v < points.length := by
    intro v hv
    obtain ⟨t, t1, t2⟩ := (hn v).mp hv
    exact ht.corners t t1 v t2
  obtain ⟨o, ho, hr⟩ := tripLoop_ok (dist := dist) (endPoint := p2) (ckptPoint := p3) (endVertex := stop)
    (ckptVertex := ckpt) (coins := draw.coins) (fuel := G.nodes.length) wf hstart hpts (tripInv_start wf) (by simp)
  have hatt : attempt G points dist startRect endRect ckptRect draw = .ok o := by
    unfold attempt
    rw [e1, ok_bind, e2, ok_bind, e3, ok_bind, getAt_eq_ok.mpr g2, ok_bind, getAt_eq_ok.mpr g3, ok_bind]
    exact ho
  rw [hatt]
  cases o with
  | done x path => exact .inr ⟨x, path, rfl⟩
  | stuck => exact .inl rfl
  | running => exact absurd rfl hr

/-- The square of the distance. -/
def squaredDistance (p q : Nat × Nat) : Nat :=
  (max p.1 q.1 - min p.1 q.1) ^ 2 + (max p.2 q.2 - min p.2 q.2) ^ 2

/-- In the square with its centre a trajectory from the lower left to the upper right corner past the lower right
one; a random first step to the centre leads on to the checkpoint; the second attempt is never used. -/
example : (do
    let G ← graphFromTriangulation fanPoints fanTriangles
    let a ← generateTrajectory G fanPoints squaredDistance (fun p => decide (p = (0, 0))) (fun p => decide (p = (4, 4)))
      (fun p => decide (p = (4, 0))) [⟨0, 0, 0, fun _ => (false, 0)⟩]
    let b ← generateTrajectory G fanPoints squaredDistance (fun p => decide (p = (0, 0))) (fun p => decide (p = (4, 4)))
      (fun p => decide (p = (4, 0))) [⟨0, 0, 0, fun k => (k == 0, 1)⟩, ⟨0, 0, 0, fun _ => (false, 0)⟩]
    return (a, b) : Py _) =
    .ok (some ([1, 0, 0, 1, 0, 0, 0, 0], [0, 1, 4]), some ([0, 1, -1, 1, 0, 0, 0, 0], [0, 2, 1, 4])) := by
  decide +kernel

/-- Two triangles with a common corner: from there a wrong turn gets stuck, and another attempt is made. -/
example : (do
    let G ← graphFromTriangulation [(0, 0), (1, 0), (0, 1), (9, 0), (8, 0)] [(0, 1, 2), (0, 3, 4)]
    let a ← generateTrajectory G [(0, 0), (1, 0), (0, 1), (9, 0), (8, 0)] squaredDistance
      (fun p => decide (p = (0, 0))) (fun p => decide (p = (9, 0))) (fun p => decide (p = (0, 1)))
      [⟨0, 0, 0, fun _ => (false, 0)⟩, ⟨0, 0, 0, fun _ => (true, 3)⟩]
    return a : Py _) = .ok (some ([0, 0, 0, 0, 1, -1], [0, 4, 3])) := by
  decide +kernel

end Verif
