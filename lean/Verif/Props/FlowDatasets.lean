import Verif.Props.FlowData

/-!
# The datasets of flows around holes (C84)
-/

namespace Verif

variable {P D R L K 𝕜 : Type}

/-! ### The triangulation with holes -/

/-- The points and triangles that are left when the triangles which meet one of the two regions are taken away, with
their vertices renumbered in order. -/
structure WithHoles (hole1 hole2 : P → Bool) (points : List P) (triangles : List Tri) (points' : List P)
    (triangles' : List Tri) (ρ : Nat → Nat) : Prop where
  kept : triangles' = (triangles.filter fun t => decide (Outside points hole1 t ∧ Outside points hole2 t)).map (Tri.map ρ)
  place : ∀ t ∈ triangles, Outside points hole1 t → Outside points hole2 t → ∀ v ∈ t.corners, points'[ρ v]? = points[v]?
  order : ∀ s ∈ triangles, ∀ t ∈ triangles, Outside points hole1 s → Outside points hole2 s → Outside points hole1 t →
    Outside points hole2 t → ∀ u ∈ s.corners, ∀ v ∈ t.corners, u < v → ρ u < ρ v
  all : ∀ i, i < points'.length → ∃ t ∈ triangles, Outside points hole1 t ∧ Outside points hole2 t ∧ ∃ v ∈ t.corners, ρ v = i

theorem corners_map (ρ : Nat → Nat) (t : Tri) : (t.map ρ).corners = t.corners.map ρ := rfl

theorem outside_map {points points' : List P} {inside : P → Bool} {ρ : Nat → Nat} {t : Tri}
    (h : ∀ v ∈ t.corners, points'[ρ v]? = points[v]?) : Outside points' inside (t.map ρ) ↔ Outside points inside t := by
  unfold Outside
  rw [corners_map]
  constructor
  · intro g v hv p hp
    exact g (ρ v) (List.mem_map_of_mem hv) p (by rw [h v hv]; exact hp)
  · intro g w hw p hp
    obtain ⟨v, hv, rfl⟩ := List.mem_map.mp hw
    exact g v hv p (by rw [← h v hv]; exact hp)

theorem holes_ok {hole1 hole2 : P → Bool} {points : List P} {triangles : List Tri} (ht : Triangulates points triangles)
    (hex : ∃ t ∈ triangles, Outside points hole1 t ∧ Outside points hole2 t) :
    ∃ p1 t1 p2 t2 ρ, createHole points triangles hole1 = .ok (p1, t1) ∧ createHole p1 t1 hole2 = .ok (p2, t2) ∧
      Triangulates p1 t1 ∧ Triangulates p2 t2 ∧ t2 ≠ [] ∧ WithHoles hole1 hole2 points triangles p2 t2 ρ := by
  obtain ⟨t0, h0, o1, o2⟩ := hex
  obtain ⟨p1, t1, ρ1, e1, a1, b1, c1, d1, f1, g1, -⟩ := C45_create_hole points triangles hole1 ht.corners ⟨t0, h0, o1⟩
  have T1 := C45_keeps_triangulations points triangles hole1 ht p1 t1 e1
  have hp1 : ∀ t ∈ triangles, Outside points hole1 t → ∀ v ∈ t.corners, p1[ρ1 v]? = points[v]? := fun t h o v hv =>
    (b1 v ⟨t, h, o, hv⟩).2
  have hmem : ∀ t ∈ triangles, Outside points hole1 t → t.map ρ1 ∈ t1 := by
    intro t h o
    rw [a1]
    exact List.mem_map_of_mem (List.mem_filter.mpr ⟨h, by simpa using o⟩)
  have ho2 : ∀ t ∈ triangles, Outside points hole1 t → (Outside p1 hole2 (t.map ρ1) ↔ Outside points hole2 t) :=
    fun t h o => outside_map (hp1 t h o)
  obtain ⟨p2, t2, ρ2, e2, a2, b2, c2, d2, f2, g2, -⟩ := C45_create_hole p1 t1 hole2 T1.corners
    ⟨_, hmem t0 h0 o1, (ho2 t0 h0 o1).mpr o2⟩
  have T2 := C45_keeps_triangulations p1 t1 hole2 T1 p2 t2 e2
  have hrem : ∀ t ∈ triangles, Outside points hole1 t → Outside points hole2 t → ∀ v ∈ t.corners,
      Remains p1 hole2 t1 (ρ1 v) := fun t h o1 o2 v hv =>
    ⟨_, hmem t h o1, (ho2 t h o1).mpr o2, by rw [corners_map]; exact List.mem_map_of_mem hv⟩
  have htri : t2 = (triangles.filter fun t => decide (Outside points hole1 t ∧ Outside points hole2 t)).map
      (Tri.map fun v => ρ2 (ρ1 v)) := by
    rw [a2, a1, List.filter_map, List.map_map, List.filter_filter]
    have : (triangles.filter fun t => ((fun t => decide (Outside p1 hole2 t)) ∘ Tri.map ρ1) t &&
        decide (Outside points hole1 t)) =
        triangles.filter fun t => decide (Outside points hole1 t ∧ Outside points hole2 t) := by
      apply List.filter_congr
      intro t h
      simp only [Function.comp]
      by_cases o : Outside points hole1 t
      · simp [o, ho2 t h o]
      · simp [o]
    rw [this]
    rfl
  refine ⟨p1, t1, p2, t2, fun v => ρ2 (ρ1 v), e1, e2, T1, T2, ?_, ⟨htri, ?_, ?_, ?_⟩⟩
  · intro h
    rw [h] at htri
    have : t0.map (fun v => ρ2 (ρ1 v)) ∈ ([] : List Tri) := by
      rw [htri]
      exact List.mem_map_of_mem (List.mem_filter.mpr ⟨h0, by simp [o1, o2]⟩)
    simp at this
  · intro t h o1 o2 v hv
    rw [(b2 _ (hrem t h o1 o2 v hv)).2, hp1 t h o1 v hv]
  · intro s hs t ht s1 s2 t1 t2 u hu v hv huv
    exact c2 _ _ (hrem s hs s1 s2 u hu) (hrem t ht t1 t2 v hv) (c1 u v ⟨s, hs, s1, hu⟩ ⟨t, ht, t1, hv⟩ huv)
  · intro i hi
    obtain ⟨w, ⟨t', m', o', w'⟩, rfl⟩ := d2 i hi
    rw [a1] at m'
    obtain ⟨t, m, rfl⟩ := List.mem_map.mp m'
    rw [List.mem_filter, decide_eq_true_iff] at m
    rw [corners_map] at w'
    obtain ⟨v, hv, rfl⟩ := List.mem_map.mp w'
    exact ⟨t, m.1, m.2, (ho2 t m.1 m.2).mp o', v, hv, rfl⟩

theorem differentTriangles_iff {triangles : List Tri} : DifferentTriangles triangles ↔
    triangles.Pairwise fun s t => ¬ ∀ v, v ∈ s.corners ↔ v ∈ t.corners := by
  rw [List.pairwise_iff_getElem]
  constructor
  · intro h i j hi hj hij hst
    exact absurd (h i j _ _ (List.getElem?_eq_getElem hi) (List.getElem?_eq_getElem hj) hst) (by omega)
  · intro h i j s t hs ht hst
    have hi := lt_of_get hs
    have hj := lt_of_get ht
    rw [List.getElem?_eq_getElem hi, Option.some.injEq] at hs
    rw [List.getElem?_eq_getElem hj, Option.some.injEq] at ht
    subst hs ht
    rcases Nat.lt_trichotomy i j with hij | hij | hij
    · exact absurd hst (h i j hi hj hij)
    · exact hij
    · exact absurd (fun v => (hst v).symm) (h j i hj hi hij)

theorem WithHoles.different {hole1 hole2 : P → Bool} {points points' : List P} {triangles triangles' : List Tri}
    {ρ : Nat → Nat} (h : WithHoles hole1 hole2 points triangles points' triangles' ρ) (hd : DifferentTriangles triangles) :
    DifferentTriangles triangles' := by
  rw [differentTriangles_iff] at hd ⊢
  rw [h.kept, List.pairwise_map]
  refine (hd.filter _).imp_of_mem ?_
  intro s t hs ht hst hcon
  rw [List.mem_filter, decide_eq_true_iff] at hs ht
  have inj : ∀ a ∈ s.corners, ∀ b ∈ t.corners, ρ a = ρ b → a = b := by
    intro a ha b hb hab
    rcases Nat.lt_trichotomy a b with g | g | g
    · have := h.order s hs.1 t ht.1 hs.2.1 hs.2.2 ht.2.1 ht.2.2 a ha b hb g
      omega
    · exact g
    · have := h.order t ht.1 s hs.1 ht.2.1 ht.2.2 hs.2.1 hs.2.2 b hb a ha g
      omega
  apply hst
  simp only [corners_map, List.mem_map] at hcon
  intro v
  constructor
  · intro hv
    obtain ⟨w, hw, e⟩ := (hcon (ρ v)).mp ⟨v, hv, rfl⟩
    rw [inj v hv w hw e.symm]
    exact hw
  · intro hv
    obtain ⟨w, hw, e⟩ := (hcon (ρ v)).mpr ⟨v, hv, rfl⟩
    rw [← inj w hw v hv e]
    exact hw

theorem checkCovered_ok {points : List P} {triangles : List Tri} (h : Triangulates points triangles) :
    checkCovered points triangles = .ok () := by
  rw [checkCovered, pyAssert_eq_ok, List.all_eq_true]
  intro i hi
  obtain ⟨t, h1, h2⟩ := h.covers i (List.mem_range.mp hi)
  rw [List.any_eq_true]
  exact ⟨t, h1, by simpa using h2⟩

theorem checkExtremes_ok {points : List P} {triangles : List Tri} (h : Triangulates points triangles)
    (hne : triangles ≠ []) : checkExtremes points triangles = .ok () := by
  obtain ⟨t, ht⟩ := List.exists_mem_of_ne_nil _ hne
  have hpos : 0 < points.length := Nat.lt_of_le_of_lt (Nat.zero_le _) (h.corners t ht t.1 (by simp [Tri.corners]))
  have hmem : ∀ v, v ∈ triangles.flatMap Tri.corners ↔ v < points.length := by
    intro v
    rw [List.mem_flatMap]
    exact ⟨fun ⟨t, h1, h2⟩ => h.corners t h1 v h2, fun hv => h.covers v hv⟩
  have e1 : (triangles.flatMap Tri.corners).min? = some 0 := by
    rw [List.min?_eq_some_iff]
    exact ⟨(hmem 0).mpr hpos, fun b _ => Nat.zero_le b⟩
  have e2 : (triangles.flatMap Tri.corners).max? = some (points.length - 1) := by
    rw [List.max?_eq_some_iff]
    exact ⟨(hmem _).mpr (by omega), fun b hb => by have := (hmem b).mp hb; omega⟩
  unfold checkExtremes
  rw [e1, e2]
  show (pyAssert (decide (0 = 0)) >>= fun _ => pyAssert (decide (points.length - 1 + 1 = points.length))) = _
  have a1 : pyAssert (decide (0 = 0)) = .ok () := rfl
  rw [a1, ok_bind, pyAssert_eq_ok]
  simp only [decide_eq_true_eq]
  omega

theorem flowTriangulation_ok {rg : FlowRegions P} {points : List P} {simplices : List Tri}
    (ht : Triangulates points simplices)
    (hex : ∃ t ∈ simplices, Outside points rg.hole1 t ∧ Outside points rg.hole2 t) :
    ∃ p2 t2 ρ, flowTriangulation rg points simplices = .ok (p2, t2) ∧ Triangulates p2 t2 ∧
      WithHoles rg.hole1 rg.hole2 points simplices p2 t2 ρ := by
  obtain ⟨p1, t1, p2, t2, ρ, e1, e2, T1, T2, ne, wh⟩ := holes_ok ht hex
  refine ⟨p2, t2, ρ, ?_, T2, wh⟩
  unfold flowTriangulation
  rw [checkCovered_ok ht, ok_bind, e1, ok_bind, checkCovered_ok T1, ok_bind, e2, ok_bind, checkCovered_ok T2, ok_bind,
    checkExtremes_ok T2 ne, ok_bind]
  rfl

theorem flowTriangulation_some {rg : FlowRegions P} {points : List P} {simplices : List Tri} {r : List P × List Tri}
    (ht : Triangulates points simplices) (h : flowTriangulation rg points simplices = .ok r) :
    ∃ t ∈ simplices, Outside points rg.hole1 t ∧ Outside points rg.hole2 t := by
  unfold flowTriangulation at h
  obtain ⟨-, -, h⟩ := bind_eq_ok.mp h
  obtain ⟨⟨p1, t1⟩, e1, h⟩ := bind_eq_ok.mp h
  obtain ⟨-, -, h⟩ := bind_eq_ok.mp h
  obtain ⟨⟨p2, t2⟩, e2, h⟩ := bind_eq_ok.mp h
  have hex1 : ∃ t ∈ simplices, Outside points rg.hole1 t := by
    by_contra hc
    push Not at hc
    rw [C45_rejected _ _ _ (.inr hc)] at e1
    exact absurd e1 (by simp)
  obtain ⟨p1', t1', ρ1, e1', a1, b1, -⟩ := C45_create_hole points simplices rg.hole1 ht.corners hex1
  rw [e1', ok_inj, Prod.mk.injEq] at e1
  obtain ⟨rfl, rfl⟩ := e1
  have hex2 : ∃ t ∈ t1', Outside p1' rg.hole2 t := by
    by_contra hc
    push Not at hc
    have := C45_rejected p1' t1' rg.hole2 (.inr hc)
    simp only at e2
    rw [this] at e2
    exact absurd e2 (by simp)
  obtain ⟨t', m', o'⟩ := hex2
  rw [a1] at m'
  obtain ⟨t, m, rfl⟩ := List.mem_map.mp m'
  rw [List.mem_filter, decide_eq_true_iff] at m
  exact ⟨t, m.1, m.2, (outside_map fun v hv => (b1 v ⟨t, m.1, m.2, hv⟩).2).mp o'⟩

/-! ### Samples -/

theorem complex_items [AddCommGroup R] (lib : SparseLib) (hlib : lib.Correct) {points : List P}
    {triangles : List Tri} (ht : Triangulates points triangles) (hdiff : DifferentTriangles triangles) :
    ∃ G B1 B2 edges, graphFromTriangulation points triangles = .ok G ∧ G.nodes.length = points.length ∧
      extractBoundaryMatrices G triangles = .ok (B1, B2) ∧ SidesOf triangles edges ∧
      (∀ q e, Dict.get G.tupleToEdge q = .ok e ↔ edges[e]? = some q) ∧ edges.length = G.edges.length ∧
      B1.cols = B2.rows ∧
      ∀ (row : Nat × Nat → R) (label : L),
        ∃ c, buildCochain lib B1 B2 (Mat.identity B1.cols) (edges.map row) label (some G.edges.length) = .ok c ∧
          FlowItem (List.range points.length) edges triangles (fun _ => 1) row label c := by
  obtain ⟨G, B1, B2, hG, hnl, hB⟩ := C41_extraction_succeeds points triangles ht
  obtain ⟨edges, hs, hdict, r1, c1, r2, c2, m1, m2⟩ := C41_entries points triangles G B1 B2 hG hB
  have hlt : ∀ q ∈ edges, q.1 < q.2 := fun q hq => ((hs.mem q.1 q.2).mp hq).1
  have hel : edges.length = G.edges.length := by
    obtain ⟨wf, -, -⟩ := FlowGraph.graph_done hG
    obtain ⟨h1, h2⟩ := extract_parts hB
    obtain ⟨-, c1', -, -⟩ := edgeColumns_done wf h1
    rw [← c1, c1']
  refine ⟨G, B1, B2, edges, hG, hnl, hB, hs, hdict, hel, by rw [c1, r2], fun row label => ?_⟩
  rw [← hel]
  apply build_item hlib List.nodup_range hs.nodup hlt ht.distinct hdiff (by rw [r1, hnl, List.length_range]) c1 r2 c2
  · intro v e w q hw hq
    obtain ⟨a, b⟩ := q
    have hv := lt_of_get hw
    rw [List.length_range] at hv
    rw [List.getElem?_range hv, Option.some.injEq] at hw
    subst hw
    obtain ⟨k1, k2, k3⟩ := m1 v e a b hq
    unfold endSign
    by_cases h1 : v = b
    · rw [if_pos h1, k1.mpr h1]
    · by_cases h2 : v = a
      · rw [if_neg h1, if_pos h2, k2.mpr h2]
      · rw [if_neg h1, if_neg h2, k3.mpr ⟨h2, h1⟩]
  · intro e i q t hq htt
    obtain ⟨a, b⟩ := q
    obtain ⟨k1, k2, k3⟩ := m2 e i a b t hq htt
    obtain ⟨j1, j2, j3⟩ := sideSign_iff (hlt _ (List.mem_of_getElem? hq)) (ht.distinct t (List.mem_of_getElem? htt))
    by_cases h1 : (a, b) ∈ t.steps
    · rw [k1.mpr h1, j1.mpr h1]
    · by_cases h2 : (b, a) ∈ t.steps
      · rw [k2.mpr h2, j2.mpr h2]
      · rw [k3.mpr ⟨h1, h2⟩, j3.mpr ⟨h1, h2⟩]

theorem trajectory_row [LinearOrder D] {points : List P} {triangles : List Tri} {G : FlowGraph}
    (hG : graphFromTriangulation points triangles = .ok G) {edges : List (Nat × Nat)}
    (hdict : ∀ q e, Dict.get G.tupleToEdge q = .ok e ↔ edges[e]? = some q) (hel : edges.length = G.edges.length)
    {dist : P → P → D} {startRect endRect ckptRect : P → Bool} {draws : List Draw} {x : List Int} {path : List Nat}
    (hrun : generateTrajectory G points dist startRect endRect ckptRect draws = .ok (some (x, path))) :
    x = edges.map (pathSign path) ∧ SimplePath points triangles startRect endRect path := by
  obtain ⟨h1, h2, h3, h4, h5, -, -, h8⟩ := C44_trajectories_are_simple_paths points triangles G hG dist startRect endRect
    ckptRect draws x path hrun
  refine ⟨?_, h1, h2, h3, h4⟩
  apply List.ext_getElem?
  intro e
  by_cases he : e < edges.length
  · have hq := List.getElem?_eq_getElem he
    rw [List.getElem?_map, hq, Option.map_some, h8 e edges[e].1 edges[e].2 ((hdict _ _).mpr hq)]
    rfl
  · rw [List.getElem?_eq_none (by omega), List.getElem?_eq_none (by simp; omega)]

/-- Sample `i` of `n` of a dataset: a simple path with its class, after a change of orientation. -/
def FlowSample [AddCommGroup R] (rg : FlowRegions P) (toRow : Int → R) (points : List P) (triangles : List Tri)
    (edges : List (Nat × Nat)) (orientation : String) (n i : Nat) (c : Cochain R Nat) : Prop :=
  ∃ s path, Signs s ∧ (orientation = "default" → s = fun _ => 1) ∧ SimplePath points triangles rg.start rg.stop path ∧
    FlowItem (List.range points.length) edges triangles s (fun q => toRow (pathSign path q)) (if i < n / 2 then 0 else 1) c

section samples
variable [LinearOrder D] [AddCommGroup R]

/-- One sample of the list made by `flowSamples`. -/
def oneSample (lib : SparseLib) (rg : FlowRegions P) (dist : P → P → D) (toRow : Int → R) (points : List P) (G : FlowGraph)
    (B1 B2 : Mat) (n : Nat) (orientation : String) (bits : Nat → Bool) (draws : List Draw) (i : Nat) :
    Py (Cochain R Nat) := do
  let classId ← flowClass n i
  let T2 ← orientMatrix B1.cols orientation bits
  generateFlowCochain lib rg dist toRow points G B1 B2 T2 classId draws

theorem flowSamples_eq (lib : SparseLib) (rg : FlowRegions P) (dist : P → P → D) (toRow : Int → R) (points : List P)
    (G : FlowGraph) (B1 B2 : Mat) (n : Nat) (orientation : String) (bits : Nat → Nat → Bool) (draws : Nat → List Draw) :
    flowSamples lib rg dist toRow points G B1 B2 n orientation bits draws =
      mapE (fun i => oneSample lib rg dist toRow points G B1 B2 n orientation (bits i) (draws i) i) (List.range n) := rfl

/-- Whether the attempts of sample `i` contain one that is not stuck. -/
def reaches (rg : FlowRegions P) (dist : P → P → D) (points : List P) (G : FlowGraph) (n i : Nat)
    (draws : List Draw) : Prop :=
  ∃ d ∈ draws, ∃ x path,
    attempt G points dist rg.start rg.stop (if i < n / 2 then rg.bot else rg.top) d = .ok (.done x path)

theorem generate_cases {G : FlowGraph} {points : List P} {dist : P → P → D} {startRect endRect ckptRect : P → Bool}
    {draws : List Draw}
    (h : ∀ d ∈ draws, attempt G points dist startRect endRect ckptRect d = .ok .stuck ∨
      ∃ x path, attempt G points dist startRect endRect ckptRect d = .ok (.done x path)) :
    ((∃ d ∈ draws, ∃ x path, attempt G points dist startRect endRect ckptRect d = .ok (.done x path)) →
      ∃ x path, generateTrajectory G points dist startRect endRect ckptRect draws = .ok (some (x, path))) ∧
    ((¬ ∃ d ∈ draws, ∃ x path, attempt G points dist startRect endRect ckptRect d = .ok (.done x path)) →
      generateTrajectory G points dist startRect endRect ckptRect draws = .ok none) := by
  induction draws with
  | nil => simp [generateTrajectory]
  | cons d ds ih =>
    obtain ⟨i1, i2⟩ := ih fun d hd => h d (by simp [hd])
    rcases h d (by simp) with hs | ⟨x, path, hs⟩
    · have e : generateTrajectory G points dist startRect endRect ckptRect (d :: ds) =
          generateTrajectory G points dist startRect endRect ckptRect ds := by
        conv_lhs => unfold generateTrajectory
        rw [hs, ok_bind]
      rw [e]
      have hiff : (∃ d' ∈ d :: ds, ∃ x path, attempt G points dist startRect endRect ckptRect d' = .ok (.done x path)) ↔
          ∃ d' ∈ ds, ∃ x path, attempt G points dist startRect endRect ckptRect d' = .ok (.done x path) := by
        constructor
        · rintro ⟨d', m, x, path, e'⟩
          rcases List.mem_cons.mp m with rfl | m
          · rw [hs] at e'
            simp at e'
          · exact ⟨d', m, x, path, e'⟩
        · rintro ⟨d', m, r⟩
          exact ⟨d', by simp [m], r⟩
      rw [hiff]
      exact ⟨i1, i2⟩
    · have e : generateTrajectory G points dist startRect endRect ckptRect (d :: ds) = .ok (some (x, path)) := by
        conv_lhs => unfold generateTrajectory
        rw [hs, ok_bind]
        rfl
      exact ⟨fun _ => ⟨x, path, e⟩, fun hn => absurd ⟨d, by simp, x, path, hs⟩ hn⟩

theorem ckpt_class (rg : FlowRegions P) (n i : Nat) :
    rg.ckpt (if i < n / 2 then 0 else 1) = if i < n / 2 then rg.bot else rg.top := by
  unfold FlowRegions.ckpt
  by_cases h : i < n / 2 <;> simp [h]

/-- A sample whose trajectory is known. -/
theorem oneSample_ok {lib : SparseLib} (hlib : lib.Correct) (rg : FlowRegions P) (dist : P → P → D) (toRow : Int → R)
    {points : List P} {triangles : List Tri} {G : FlowGraph} {B1 B2 : Mat} {edges : List (Nat × Nat)}
    (hG : graphFromTriangulation points triangles = .ok G)
    (hdict : ∀ q e, Dict.get G.tupleToEdge q = .ok e ↔ edges[e]? = some q) (hel : edges.length = G.edges.length)
    (hb : ∀ (row : Nat × Nat → R) (label : Nat),
      ∃ c, buildCochain lib B1 B2 (Mat.identity B1.cols) (edges.map row) label (some G.edges.length) = .ok c ∧
        FlowItem (List.range points.length) edges triangles (fun _ => 1) row label c)
    {n i : Nat} (hn : 2 ≤ n) {draws : List Draw} {x : List Int} {path : List Nat}
    (hrun : generateTrajectory G points dist rg.start rg.stop (if i < n / 2 then rg.bot else rg.top) draws =
      .ok (some (x, path))) :
    ∃ c0, EdgeOnly c0 ∧ ∀ orientation bits, KnownOrientation orientation → ∃ s, Signs s ∧
      oneSample lib rg dist toRow points G B1 B2 n orientation bits draws i = .ok (c0.flip s) ∧
      FlowSample rg toRow points triangles edges orientation n i (c0.flip s) := by
  obtain ⟨rfl, hsp⟩ := trajectory_row hG hdict hel hrun
  obtain ⟨c0, h0, h1⟩ := hb (fun q => toRow (pathSign path q)) (if i < n / 2 then 0 else 1)
  refine ⟨c0, h1.edgeOnly, fun orientation bits ho => ?_⟩
  obtain ⟨T2, s, c', g1, g2, g3, g4, rfl, g6⟩ := orient_build hlib h0 h1 orientation bits ho
  refine ⟨s, g3, ?_, s, path, g3, g4, hsp, g6⟩
  have hle : (if i < n / 2 then 0 else 1) ≤ 1 := by split <;> omega
  unfold oneSample
  rw [(C60_classes n i).2 hn, ok_bind, g1, ok_bind]
  unfold generateFlowCochain
  have a1 : pyAssert (decide ((if i < n / 2 then 0 else 1) ≤ 1)) = .ok () := by
    rw [pyAssert_eq_ok]
    simpa using hle
  rw [a1, ok_bind, ckpt_class, hrun, ok_bind]
  show buildCochain lib B1 B2 T2 ((edges.map (pathSign path)).map toRow) _ _ = _
  rw [List.map_map]
  exact g2

/-- A sample whose attempts are all stuck. -/
theorem oneSample_stuck {lib : SparseLib} {rg : FlowRegions P} {dist : P → P → D} {toRow : Int → R}
    {points : List P} {G : FlowGraph} {B1 B2 : Mat} {n i : Nat} (hn : 2 ≤ n) {draws : List Draw}
    (hrun : generateTrajectory G points dist rg.start rg.stop (if i < n / 2 then rg.bot else rg.top) draws = .ok none)
    {orientation : String} (ho : KnownOrientation orientation) (bits : Nat → Bool) :
    oneSample lib rg dist toRow points G B1 B2 n orientation bits draws i = .error .runtime := by
  obtain ⟨T2, hT⟩ : ∃ T2, orientMatrix B1.cols orientation bits = .ok T2 := by
    obtain ⟨m1, m2, -⟩ := C46_orientation_matrices B1.cols orientation bits
    rcases ho with rfl | rfl
    · exact ⟨_, m1 rfl⟩
    · obtain ⟨s, -, h⟩ := m2 rfl
      exact ⟨_, h⟩
  have hle : (if i < n / 2 then 0 else 1) ≤ 1 := by split <;> omega
  unfold oneSample
  rw [(C60_classes n i).2 hn, ok_bind, hT, ok_bind]
  unfold generateFlowCochain
  have a1 : pyAssert (decide ((if i < n / 2 then 0 else 1) ≤ 1)) = .ok () := by
    rw [pyAssert_eq_ok]
    simpa using hle
  rw [a1, ok_bind, ckpt_class, hrun, ok_bind]

/-- What a sample that was made consists of. -/
theorem oneSample_done {lib : SparseLib} {rg : FlowRegions P} {dist : P → P → D} {toRow : Int → R}
    {points : List P} {G : FlowGraph} {B1 B2 : Mat} {n i : Nat} {draws : List Draw}
    {orientation : String} {bits : Nat → Bool} {c : Cochain R Nat}
    (h : oneSample lib rg dist toRow points G B1 B2 n orientation bits draws i = .ok c) :
    2 ≤ n ∧ KnownOrientation orientation ∧ ∃ x path,
      generateTrajectory G points dist rg.start rg.stop (if i < n / 2 then rg.bot else rg.top) draws =
        .ok (some (x, path)) := by
  unfold oneSample at h
  obtain ⟨k, hk, h⟩ := bind_eq_ok.mp h
  obtain ⟨T2, hT, h⟩ := bind_eq_ok.mp h
  have hn : 2 ≤ n := by
    by_contra hn
    rw [(C60_classes n i).1 (by omega)] at hk
    exact absurd hk (by simp)
  rw [(C60_classes n i).2 hn, ok_inj] at hk
  subst hk
  unfold generateFlowCochain at h
  obtain ⟨-, -, h⟩ := bind_eq_ok.mp h
  obtain ⟨t, ht, h⟩ := bind_eq_ok.mp h
  rw [ckpt_class] at ht
  refine ⟨hn, orient_known hT, ?_⟩
  cases t with
  | none => exact absurd h (by simp)
  | some xp => exact ⟨xp.1, xp.2, ht⟩

theorem mapE_all {A B : Type} {f : A → Py B} {l : List A} (h : ∀ a ∈ l, ∃ b, f a = .ok b) : ∃ bs, mapE f l = .ok bs := by
  induction l with
  | nil => exact ⟨[], rfl⟩
  | cons a l ih =>
    obtain ⟨b, hb⟩ := h a (by simp)
    obtain ⟨bs, hbs⟩ := ih fun a ha => h a (by simp [ha])
    exact ⟨b :: bs, by rw [mapE_cons, hb, ok_bind, hbs]; rfl⟩

theorem mapE_error {A B : Type} {f : A → Py B} {e : PyErr} {l : List A} (h : ∀ a ∈ l, (∃ b, f a = .ok b) ∨ f a = .error e)
    (hex : ∃ a ∈ l, f a = .error e) : mapE f l = .error e := by
  induction l with
  | nil => simp at hex
  | cons a l ih =>
    rw [mapE_cons]
    rcases h a (by simp) with ⟨b, hb⟩ | hb
    · rw [hb, ok_bind, ih (fun a ha => h a (by simp [ha])) (by
        obtain ⟨a', m, e'⟩ := hex
        rcases List.mem_cons.mp m with rfl | m
        · rw [hb] at e'; simp at e'
        · exact ⟨a', m, e'⟩)]
      rfl
    · rw [hb]
      rfl

/-- A place of the triangulation outside both holes in the region. -/
def MeetsRegion (rg : FlowRegions P) (points : List P) (simplices : List Tri) (region : P → Bool) : Prop :=
  ∃ t ∈ simplices, Outside points rg.hole1 t ∧ Outside points rg.hole2 t ∧ ∃ v ∈ t.corners, ∃ p, points[v]? = some p ∧
    region p = true

omit [LinearOrder D] [AddCommGroup R] in
theorem MeetsRegion.after {rg : FlowRegions P} {points points' : List P} {simplices triangles' : List Tri} {ρ : Nat → Nat}
    {region : P → Bool} (h : MeetsRegion rg points simplices region)
    (wh : WithHoles rg.hole1 rg.hole2 points simplices points' triangles' ρ) : ∃ p ∈ points', region p = true := by
  obtain ⟨t, h1, h2, h3, v, hv, p, hp, hr⟩ := h
  refine ⟨p, List.mem_of_getElem? (i := ρ v) ?_, hr⟩
  rw [wh.place t h1 h2 h3 v hv, hp]

/-- The samples of a split: all of them, or none when the attempts of one of them are all stuck. -/
theorem flowSamples_cases {lib : SparseLib} (hlib : lib.Correct) (rg : FlowRegions P) (dist : P → P → D) (toRow : Int → R)
    {points : List P} {triangles : List Tri} {G : FlowGraph} {B1 B2 : Mat} {edges : List (Nat × Nat)}
    (ht : Triangulates points triangles) (hG : graphFromTriangulation points triangles = .ok G)
    (hdict : ∀ q e, Dict.get G.tupleToEdge q = .ok e ↔ edges[e]? = some q) (hel : edges.length = G.edges.length)
    (hb : ∀ (row : Nat × Nat → R) (label : Nat),
      ∃ c, buildCochain lib B1 B2 (Mat.identity B1.cols) (edges.map row) label (some G.edges.length) = .ok c ∧
        FlowItem (List.range points.length) edges triangles (fun _ => 1) row label c)
    (h1 : ∃ p ∈ points, rg.start p = true) (h2 : ∃ p ∈ points, rg.stop p = true)
    (h3 : ∃ p ∈ points, rg.bot p = true) (h4 : ∃ p ∈ points, rg.top p = true)
    {n : Nat} (hn : n ≠ 1) {orientation : String} (ho : KnownOrientation orientation) (bits : Nat → Nat → Bool)
    (draws : Nat → List Draw) :
    ((∀ i, i < n → reaches rg dist points G n i (draws i)) →
      ∃ cs, flowSamples lib rg dist toRow points G B1 B2 n orientation bits draws = .ok cs) ∧
    ((¬ ∀ i, i < n → reaches rg dist points G n i (draws i)) →
      flowSamples lib rg dist toRow points G B1 B2 n orientation bits draws = .error .runtime) := by
  rw [flowSamples_eq]
  have hatt : ∀ i, (∃ p ∈ points, (if i < n / 2 then rg.bot else rg.top) p = true) := by
    intro i
    split
    · exact h3
    · exact h4
  have hgen := fun i => generate_cases (G := G) (points := points) (dist := dist) (startRect := rg.start)
    (endRect := rg.stop) (ckptRect := if i < n / 2 then rg.bot else rg.top) (draws := draws i) (by
      obtain ⟨G', e, h⟩ := C44_attempts_end points triangles ht dist rg.start rg.stop (if i < n / 2 then rg.bot else rg.top)
        h1 h2 (hatt i)
      rw [hG, ok_inj] at e
      subst e
      exact fun d _ => h d)
  have hok : ∀ i, i < n → reaches rg dist points G n i (draws i) →
      ∃ c, oneSample lib rg dist toRow points G B1 B2 n orientation (bits i) (draws i) i = .ok c := by
    intro i hi hr
    obtain ⟨x, path, hrun⟩ := (hgen i).1 hr
    obtain ⟨c0, -, h⟩ := oneSample_ok hlib rg dist toRow hG hdict hel hb (i := i) (by omega : 2 ≤ n) hrun
    obtain ⟨s, -, e, -⟩ := h orientation (bits i) ho
    exact ⟨_, e⟩
  have hst : ∀ i, i < n → ¬ reaches rg dist points G n i (draws i) →
      oneSample lib rg dist toRow points G B1 B2 n orientation (bits i) (draws i) i = .error .runtime := fun i hi hr =>
    oneSample_stuck (by omega : 2 ≤ n) ((hgen i).2 hr) ho (bits i)
  constructor
  · intro h
    exact mapE_all fun i hi => hok i (List.mem_range.mp hi) (h i (List.mem_range.mp hi))
  · intro h
    push Not at h
    obtain ⟨i, hi, hr⟩ := h
    apply mapE_error
    · intro j hj
      rw [List.mem_range] at hj
      by_cases hr : reaches rg dist points G n j (draws j)
      · exact .inl (hok j hj hr)
      · exact .inr (hst j hj hr)
    · exact ⟨i, List.mem_range.mpr hi, hst i hi hr⟩

omit [LinearOrder D] in
theorem Cochain.flip_flip (s s' : Nat → Int) (c : Cochain R L) :
    (c.flip s).flip s' = c.flip fun i => s' i * s i := by
  have hrows : ∀ x : List R, flipRows s' (flipRows s x) = flipRows (fun i => s' i * s i) x := by
    intro x
    unfold flipRows
    apply List.ext_getElem
    · simp
    · intro i h1 h2
      simp [mul_smul]
  have hcols : ∀ index orient, flipCols s' index (flipCols s index orient) = flipCols (fun i => s' i * s i) index orient := by
    intro index orient
    unfold flipCols
    apply List.ext_getElem
    · simp
    · intro i h1 h2
      simp
      ring
  unfold Cochain.flip
  simp only [Option.map_map]
  congr 1
  · cases c.x <;> simp [hrows]
  · cases c.upperOrient <;> simp [hcols]
  · cases c.lowerOrient <;> simp [hcols]

omit [LinearOrder D] in
theorem reoriented_pair {s s' : Nat → Int} (hs : Signs s) (hs' : Signs s') (c : Cochain R L) :
    Reoriented (c.flip s) (c.flip s') := by
  refine ⟨fun i => s' i * s i, ?_, ?_⟩
  · intro i
    show s' i * s i = 1 ∨ s' i * s i = -1
    rcases hs i with h | h <;> rcases hs' i with h' | h' <;> rw [h, h'] <;> decide
  · rw [Cochain.flip_flip]
    congr 1
    funext i
    rcases hs i with h | h <;> simp [h]

/-- Samples that were made, and the same samples with other orientations. -/
theorem flowSamples_done {lib : SparseLib} (hlib : lib.Correct) (rg : FlowRegions P) (dist : P → P → D) (toRow : Int → R)
    {points : List P} {triangles : List Tri} {G : FlowGraph} {B1 B2 : Mat} {edges : List (Nat × Nat)}
    (hG : graphFromTriangulation points triangles = .ok G)
    (hdict : ∀ q e, Dict.get G.tupleToEdge q = .ok e ↔ edges[e]? = some q) (hel : edges.length = G.edges.length)
    (hb : ∀ (row : Nat × Nat → R) (label : Nat),
      ∃ c, buildCochain lib B1 B2 (Mat.identity B1.cols) (edges.map row) label (some G.edges.length) = .ok c ∧
        FlowItem (List.range points.length) edges triangles (fun _ => 1) row label c)
    {n : Nat} {orientation : String} {bits : Nat → Nat → Bool} {draws : Nat → List Draw} {cs : List (Cochain R Nat)}
    (h : flowSamples lib rg dist toRow points G B1 B2 n orientation bits draws = .ok cs) :
    cs.length = n ∧ (∀ i c, cs[i]? = some c → FlowSample rg toRow points triangles edges orientation n i c) ∧
    (∀ c ∈ cs, EdgeOnly c) ∧
    ∀ orientation' bits', KnownOrientation orientation' →
      ∃ cs', flowSamples lib rg dist toRow points G B1 B2 n orientation' bits' draws = .ok cs' ∧
        List.Forall₂ Reoriented cs cs' := by
  rw [flowSamples_eq] at h
  have hlen : cs.length = n := by rw [mapE_length h, List.length_range]
  have hall := mapE_eq_ok_iff.mp h
  have key : ∀ i c, oneSample lib rg dist toRow points G B1 B2 n orientation (bits i) (draws i) i = .ok c →
      FlowSample rg toRow points triangles edges orientation n i c ∧ EdgeOnly c ∧
      ∀ orientation' bits', KnownOrientation orientation' → ∃ c',
        oneSample lib rg dist toRow points G B1 B2 n orientation' bits' (draws i) i = .ok c' ∧ Reoriented c c' := by
    intro i c hc
    obtain ⟨hn, ho, x, path, hrun⟩ := oneSample_done hc
    obtain ⟨c0, he, h⟩ := oneSample_ok hlib rg dist toRow hG hdict hel hb hn hrun
    obtain ⟨s, hs, e1, e2⟩ := h orientation (bits i) ho
    rw [hc, ok_inj] at e1
    subst e1
    refine ⟨e2, he, fun orientation' bits' ho' => ?_⟩
    obtain ⟨s', hs', e1', -⟩ := h orientation' bits' ho'
    exact ⟨_, e1', reoriented_pair hs hs' c0⟩
  have hget : ∀ i c, cs[i]? = some c → oneSample lib rg dist toRow points G B1 B2 n orientation (bits i) (draws i) i = .ok c := by
    intro i c hc
    have hi := lt_of_get hc
    have := hall.get (i := i) (by rw [List.length_range, ← hlen]; exact hi) hi
    rw [List.getElem?_eq_getElem hi, Option.some.injEq] at hc
    simp only [List.get_eq_getElem, List.getElem_range] at this
    rw [this, hc]
  refine ⟨hlen, fun i c hc => (key i c (hget i c hc)).1, ?_, fun orientation' bits' ho' => ?_⟩
  · intro c hc
    obtain ⟨i, hi⟩ := List.getElem?_of_mem hc
    exact (key i c (hget i c hi)).2.1
  · have : ∃ cs', List.Forall₂ (fun i c' => oneSample lib rg dist toRow points G B1 B2 n orientation' (bits' i) (draws i) i = .ok c')
        (List.range n) cs' ∧ List.Forall₂ Reoriented cs cs' := by
      clear hlen hget h
      generalize List.range n = l at hall
      induction hall with
      | nil => exact ⟨[], .nil, .nil⟩
      | @cons i c l cs hic hrest ih =>
        obtain ⟨cs', g1, g2⟩ := ih
        obtain ⟨c', k1, k2⟩ := (key i c hic).2.2 orientation' (bits' i) ho'
        exact ⟨c' :: cs', .cons k1 g1, .cons k2 g2⟩
    obtain ⟨cs', g1, g2⟩ := this
    exact ⟨cs', by rw [flowSamples_eq]; exact mapE_eq_ok_iff.mpr g1, g2⟩

/-! ### The dataset -/

theorem loadFlowDataset_eq (lib : SparseLib) (hlib : lib.Correct) (rg : FlowRegions P) (dist : P → P → D) (toRow : Int → R)
    {points : List P} {simplices : List Tri} (ht : Triangulates points simplices) (hdiff : DifferentTriangles simplices)
    (hex : ∃ t ∈ simplices, Outside points rg.hole1 t ∧ Outside points rg.hole2 t) :
    ∃ points' triangles' ρ G B1 B2 edges, WithHoles rg.hole1 rg.hole2 points simplices points' triangles' ρ ∧
      Triangulates points' triangles' ∧ graphFromTriangulation points' triangles' = .ok G ∧ SidesOf triangles' edges ∧
      (∀ q e, Dict.get G.tupleToEdge q = .ok e ↔ edges[e]? = some q) ∧ edges.length = G.edges.length ∧
      (∀ (row : Nat × Nat → R) (label : Nat),
        ∃ c, buildCochain lib B1 B2 (Mat.identity B1.cols) (edges.map row) label (some G.edges.length) = .ok c ∧
          FlowItem (List.range points'.length) edges triangles' (fun _ => 1) row label c) ∧
      ∀ numTrain numTest trainO testO trainD testD,
        loadFlowDataset lib rg dist toRow points simplices numTrain numTest trainO testO trainD testD =
          (flowSamples lib rg dist toRow points' G B1 B2 numTrain trainO trainD.bits trainD.draws >>= fun train =>
            flowSamples lib rg dist toRow points' G B1 B2 numTest testO testD.bits testD.draws >>= fun test =>
              .ok (train, test, G)) := by
  obtain ⟨points', triangles', ρ, e, ht', wh⟩ := flowTriangulation_ok ht hex
  obtain ⟨G, B1, B2, edges, hG, hnl, hB, hs, hdict, hel, hcols, hb⟩ := complex_items (R := R) (L := Nat) lib hlib ht'
    (wh.different hdiff)
  refine ⟨points', triangles', ρ, G, B1, B2, edges, wh, ht', hG, hs, hdict, hel, hb, ?_⟩
  intro numTrain numTest trainO testO trainD testD
  unfold loadFlowDataset
  have a1 : pyAssert (decide (G.nodes.length = points'.length)) = .ok () := by rw [pyAssert_eq_ok]; simpa using hnl
  have a2 : pyAssert (decide (B1.cols = B2.rows)) = .ok () := by rw [pyAssert_eq_ok]; simpa using hcols
  rw [e, ok_bind, hG, ok_bind, a1, ok_bind, hB, ok_bind, a2, ok_bind]
  rfl

/-- **C84** The flow dataset: the samples of both splits are flows of simple paths from the start region to the end
region, along the sides of the triangles that do not meet a hole, as cochains on these sides with the adjacencies of the
complex; the first half of each split has class 0, the rest class 1, and with default orientation all edges point to
the larger vertex. -/
theorem C84_flow_items (lib : SparseLib) (hlib : lib.Correct) (rg : FlowRegions P) (dist : P → P → D) (toRow : Int → R)
    (points : List P) (simplices : List Tri) (ht : Triangulates points simplices) (hdiff : DifferentTriangles simplices)
    (numTrain numTest : Nat) (trainO testO : String) (trainD testD : SampleDraws) (train test : List (Cochain R Nat))
    (G : FlowGraph)
    (h : loadFlowDataset lib rg dist toRow points simplices numTrain numTest trainO testO trainD testD =
      .ok (train, test, G)) :
    ∃ points' triangles' ρ edges, WithHoles rg.hole1 rg.hole2 points simplices points' triangles' ρ ∧
      SidesOf triangles' edges ∧
      train.length = numTrain ∧
      (∀ i c, train[i]? = some c → FlowSample rg toRow points' triangles' edges trainO numTrain i c) ∧
      test.length = numTest ∧
      (∀ i c, test[i]? = some c → FlowSample rg toRow points' triangles' edges testO numTest i c) := by
  have hex : ∃ t ∈ simplices, Outside points rg.hole1 t ∧ Outside points rg.hole2 t := by
    unfold loadFlowDataset at h
    obtain ⟨r, hr, -⟩ := bind_eq_ok.mp h
    exact flowTriangulation_some ht hr
  obtain ⟨points', triangles', ρ, G', B1, B2, edges, wh, -, hG, hs, hdict, hel, hb, heq⟩ :=
    loadFlowDataset_eq lib hlib rg dist toRow ht hdiff hex
  rw [heq] at h
  obtain ⟨tr, h1, h⟩ := bind_eq_ok.mp h
  obtain ⟨te, h2, h⟩ := bind_eq_ok.mp h
  rw [ok_inj, Prod.mk.injEq, Prod.mk.injEq] at h
  obtain ⟨rfl, rfl, rfl⟩ := h
  obtain ⟨a1, a2, -, -⟩ := flowSamples_done hlib rg dist toRow hG hdict hel hb h1
  obtain ⟨b1, b2, -, -⟩ := flowSamples_done hlib rg dist toRow hG hdict hel hb h2
  exact ⟨points', triangles', ρ, edges, wh, hs, a1, a2, b1, b2⟩

/-- **C84** The flow dataset is made whenever the regions of the paths meet the triangulation outside the holes: the
only thing that can go wrong is that all attempts at one of the paths are stuck. -/
theorem C84_flow_succeeds (lib : SparseLib) (hlib : lib.Correct) (rg : FlowRegions P) (dist : P → P → D) (toRow : Int → R)
    (points : List P) (simplices : List Tri) (ht : Triangulates points simplices) (hdiff : DifferentTriangles simplices)
    (h1 : MeetsRegion rg points simplices rg.start) (h2 : MeetsRegion rg points simplices rg.stop)
    (h3 : MeetsRegion rg points simplices rg.bot) (h4 : MeetsRegion rg points simplices rg.top)
    (numTrain numTest : Nat) (hn1 : numTrain ≠ 1) (hn2 : numTest ≠ 1) (trainO testO : String)
    (ho1 : KnownOrientation trainO) (ho2 : KnownOrientation testO) (trainD testD : SampleDraws) :
    ∃ points' triangles' ρ G, WithHoles rg.hole1 rg.hole2 points simplices points' triangles' ρ ∧
      graphFromTriangulation points' triangles' = .ok G ∧
      (((∀ i, i < numTrain → reaches rg dist points' G numTrain i (trainD.draws i)) ∧
        (∀ i, i < numTest → reaches rg dist points' G numTest i (testD.draws i))) →
          ∃ train test, loadFlowDataset lib rg dist toRow points simplices numTrain numTest trainO testO trainD testD =
            .ok (train, test, G)) ∧
      (¬ ((∀ i, i < numTrain → reaches rg dist points' G numTrain i (trainD.draws i)) ∧
        (∀ i, i < numTest → reaches rg dist points' G numTest i (testD.draws i))) →
          loadFlowDataset lib rg dist toRow points simplices numTrain numTest trainO testO trainD testD =
            .error .runtime) := by
  have hex : ∃ t ∈ simplices, Outside points rg.hole1 t ∧ Outside points rg.hole2 t := by
    obtain ⟨t, a, b, c, -⟩ := h1
    exact ⟨t, a, b, c⟩
  obtain ⟨points', triangles', ρ, G, B1, B2, edges, wh, ht', hG, hs, hdict, hel, hb, heq⟩ :=
    loadFlowDataset_eq lib hlib rg dist toRow ht hdiff hex
  have tr := flowSamples_cases hlib rg dist toRow ht' hG hdict hel hb (h1.after wh) (h2.after wh) (h3.after wh)
    (h4.after wh) hn1 ho1 trainD.bits trainD.draws
  have te := flowSamples_cases hlib rg dist toRow ht' hG hdict hel hb (h1.after wh) (h2.after wh) (h3.after wh)
    (h4.after wh) hn2 ho2 testD.bits testD.draws
  refine ⟨points', triangles', ρ, G, wh, hG, ?_, ?_⟩
  · rintro ⟨g1, g2⟩
    obtain ⟨train, e1⟩ := tr.1 g1
    obtain ⟨test, e2⟩ := te.1 g2
    exact ⟨train, test, by rw [heq, e1, ok_bind, e2, ok_bind]⟩
  · intro g
    rw [heq]
    by_cases g1 : ∀ i, i < numTrain → reaches rg dist points' G numTrain i (trainD.draws i)
    · obtain ⟨train, e1⟩ := tr.1 g1
      rw [e1, ok_bind, te.2 fun g2 => g ⟨g1, g2⟩]
      rfl
    · rw [tr.2 g1]
      rfl

end samples

/-! ### The splits and their loaders -/

theorem mapE_getAt_range {A : Type} (l1 l2 : List A) :
    mapE (getAt (l1 ++ l2)) (List.range l1.length) = .ok l1 ∧
      mapE (getAt (l1 ++ l2)) ((List.range l2.length).map fun i => l1.length + i) = .ok l2 := by
  constructor
  · rw [mapE_eq_ok_iff, List.forall₂_iff_get]
    refine ⟨by simp, fun i h1 h2 => ?_⟩
    rw [getAt_eq_ok]
    simp at h1
    simp [h1, List.getElem?_append_left h1]
  · rw [mapE_eq_ok_iff, List.forall₂_iff_get]
    refine ⟨by simp, fun i h1 h2 => ?_⟩
    rw [getAt_eq_ok]
    simp at h1
    simp [h1]

/-- The dataset with the items of two lists as its training and validation split. -/
def IsSplit (ds : CochainDataset R L) (train val : List (Cochain R L)) : Prop :=
  ds.items = train ++ val ∧ ds.splits.train = some (List.range train.length) ∧
    ds.splits.valid = some ((List.range val.length).map fun i => train.length + i) ∧ ds.splits.test = none

/-- **C84** The loaders of the edge-flow datasets: the validation loader yields batches of the validation samples in
order, the training loader with a permutation as order yields batches of the permuted training samples, and there is
no loader for a test split. -/
theorem C84_loaders (ds : CochainDataset R L) (train val : List (Cochain R L)) (hds : IsSplit ds train val)
    (b : Nat) (hb : 0 < b) :
    cochainLoader ds "valid" none b = mapE fromCochainList (chunks b val) ∧
    (train ≠ [] → ∀ p : List Nat, p.Perm (List.range train.length) → ∃ picked, picked.Perm train ∧
      picked.map some = p.map (fun i => train[i]?) ∧
      cochainLoader ds "train" (some p) b = mapE fromCochainList (chunks b picked)) ∧
    ∀ shuffle, cochainLoader ds "test" shuffle b = .error .assertion := by
  obtain ⟨h1, h2, h3, h4⟩ := hds
  obtain ⟨g1, g2⟩ := mapE_getAt_range train val
  have hb0 : b ≠ 0 := by omega
  refine ⟨?_, ?_, ?_⟩
  · unfold cochainLoader splitIds Splits.find
    rw [if_neg (by decide), if_pos rfl, h3, ok_bind]
    show ((Except.ok _ : Py (List Nat)) >>= _) = _
    rw [ok_bind, h1, g2, ok_bind]
    show ((Except.ok (List.range val.length) : Py (List Nat)) >>= _) = _
    rw [ok_bind, if_neg hb0]
    have := (mapE_getAt_range val []).1
    rw [List.append_nil] at this
    rw [this, ok_bind]
  · intro hne p hp
    have hget := (mapE_getAt_range train []).1
    rw [List.append_nil] at hget
    obtain ⟨picked, hpk⟩ : ∃ picked, mapE (getAt train) p = .ok picked := by
      apply mapE_all
      intro i hi
      have := List.mem_range.mp (hp.mem_iff.mp hi)
      exact ⟨_, getAt_eq_ok.mpr (List.getElem?_eq_getElem this)⟩
    have hmap : picked.map some = p.map (fun i => train[i]?) := by
      have := mapE_eq_ok_iff.mp hpk
      clear hpk hp
      induction this with
      | nil => rfl
      | cons h _ ih => rw [List.map_cons, List.map_cons, ih, getAt_eq_ok.mp h]
    refine ⟨picked, ?_, hmap, ?_⟩
    · have hperm : (picked.map some).Perm (train.map some) := by
        rw [hmap]
        refine (hp.map _).trans ?_
        rw [show (List.range train.length).map (fun i => train[i]?) = train.map some from ?_]
        apply List.ext_getElem
        · simp
        · intro i i1 i2
          simp at i1
          simp [i1]
      have h' := hperm.filterMap id
      simpa [List.filterMap_map] using h'
    · unfold cochainLoader splitIds Splits.find
      rw [if_pos rfl, h2, ok_bind]
      show ((Except.ok _ : Py (List Nat)) >>= _) = _
      rw [ok_bind, h1, g1, ok_bind]
      have : samplerOf train.length (some p) = .ok p := by
        unfold samplerOf
        exact if_neg (by simpa using hne)
      rw [this, ok_bind, if_neg hb0, hpk, ok_bind]
  · intro shuffle
    unfold cochainLoader splitIds Splits.find
    rw [if_neg (by decide), if_neg (by decide), if_pos rfl, h4]
    rfl

/-- **C84** A batch size of zero is a `ValueError` of the loader, for every order of the samples. -/
theorem C84_no_batch_size (ds : CochainDataset R L) (train val : List (Cochain R L)) (hds : IsSplit ds train val)
    (p : List Nat) (hne : train ≠ []) :
    cochainLoader ds "valid" none 0 = .error .value ∧ cochainLoader ds "train" (some p) 0 = .error .value := by
  obtain ⟨h1, h2, h3, h4⟩ := hds
  obtain ⟨g1, g2⟩ := mapE_getAt_range train val
  refine ⟨?_, ?_⟩
  · unfold cochainLoader splitIds Splits.find
    rw [if_neg (by decide), if_pos rfl, h3, ok_bind]
    show ((Except.ok _ : Py (List Nat)) >>= _) = _
    rw [ok_bind, h1, g2, ok_bind]
    rfl
  · unfold cochainLoader splitIds Splits.find
    rw [if_pos rfl, h2, ok_bind]
    show ((Except.ok _ : Py (List Nat)) >>= _) = _
    rw [ok_bind, h1, g1, ok_bind]
    have : samplerOf train.length (some p) = .ok p := by
      unfold samplerOf
      exact if_neg (by simpa using hne)
    rw [this, ok_bind]
    rfl

example : IsSplit (L := Nat) (R := ℚ) ⟨[{ dim := 1 }, { dim := 1, x := some [2] }], ⟨some [0], some [1], none⟩⟩
    [{ dim := 1 }] [{ dim := 1, x := some [2] }] := ⟨rfl, rfl, rfl, rfl⟩

/-! ### Predictions -/

theorem buildCochain_edgeOnly [AddCommGroup R] {lib : SparseLib} {B1 B2 T2 : Mat} {x : List R} {label : L}
    {numEdges : Option Nat} {c : Cochain R L} (h : buildCochain lib B1 B2 T2 x label numEdges = .ok c) : EdgeOnly c := by
  unfold buildCochain at h
  obtain ⟨B1', -, h⟩ := bind_eq_ok.mp h
  obtain ⟨B2', -, h⟩ := bind_eq_ok.mp h
  obtain ⟨lower, -, h⟩ := bind_eq_ok.mp h
  obtain ⟨upper, -, h⟩ := bind_eq_ok.mp h
  obtain ⟨x', -, h⟩ := bind_eq_ok.mp h
  have e : ∀ d : Cochain R L, d.dim = 1 → Cochain.mk? d = .ok d := by
    intro d hd
    unfold Cochain.mk?
    rw [if_neg (by rw [hd]; decide)]
    rfl
  rw [e _ rfl, ok_inj] at h
  subst h
  exact ⟨rfl, rfl, rfl⟩

section nets
variable [AddCommGroup R] [Field 𝕜] [CharZero 𝕜] [Module 𝕜 R]

/-- **C46** End to end: a network that is blind to orientations makes the same predictions for a list of flows whatever
orientation matrices are drawn for them, in one batch. -/
theorem C46_predictions_do_not_depend_on_the_orientation (lib : SparseLib) (hlib : lib.Correct) (B1 B2 : Mat) (n : Nat)
    (flows : List (List R × L)) (hne : flows ≠ []) (numEdges : Option Nat) (cs : List (Cochain R L))
    (hcs : mapE (fun f => orientMatrix n "default" (fun _ => true) >>= fun T => buildCochain lib B1 B2 T f.1 f.2 numEdges)
      flows = .ok cs)
    (net : OrientNet R) (hnet : net.Blind) (preds : List R)
    (hp : List.Forall₂ (fun c p => (fromCochainList [c] >>= net.forward 𝕜) = .ok [p]) cs preds)
    (bits : Nat → Nat → Bool) :
    (fromCochainList cs >>= net.forward 𝕜) = .ok preds ∧
    ∃ cs', mapE (fun f => orientMatrix n "random" (bits f.2) >>= fun T => buildCochain lib B1 B2 T f.1.1 f.1.2 numEdges)
        flows.zipIdx = .ok cs' ∧
      (fromCochainList cs' >>= net.forward 𝕜) = .ok preds := by
  have hall := mapE_eq_ok_iff.mp hcs
  have hcne : cs ≠ [] := by
    rintro rfl
    cases hall
    exact hne rfl
  have he : ∀ c ∈ cs, EdgeOnly c := by
    intro c hc
    obtain ⟨f, -, hf⟩ := singles_left hall.flip c hc
    obtain ⟨T, -, hf⟩ := bind_eq_ok.mp hf
    exact buildCochain_edgeOnly hf
  refine ⟨C84_batches net cs hcne he preds hp, ?_⟩
  have key : ∀ (k : Nat) (flows : List (List R × L)) (cs : List (Cochain R L)),
      List.Forall₂ (fun f c => (orientMatrix n "default" (fun _ => true) >>= fun T =>
        buildCochain lib B1 B2 T f.1 f.2 numEdges) = .ok c) flows cs →
      ∃ cs', mapE (fun f => orientMatrix n "random" (bits f.2) >>= fun T => buildCochain lib B1 B2 T f.1.1 f.1.2 numEdges)
        (flows.zipIdx k) = .ok cs' ∧ List.Forall₂ Reoriented cs cs' := by
    intro k flows cs h
    induction h generalizing k with
    | nil => exact ⟨[], rfl, .nil⟩
    | @cons f c fs cs hf _ ih =>
      obtain ⟨cs', h1, h2⟩ := ih (k + 1)
      obtain ⟨m1, -, -⟩ := C46_orientation_matrices n "default" (fun _ => true)
      obtain ⟨-, m2, -⟩ := C46_orientation_matrices n "random" (bits k)
      obtain ⟨s, hs, m2⟩ := m2 rfl
      rw [m1 rfl, ok_bind] at hf
      refine ⟨c.flip s :: cs', ?_, .cons ⟨s, hs, rfl⟩ h2⟩
      rw [List.zipIdx_cons, mapE_cons, m2, ok_bind, C46_change_of_orientation lib hlib B1 B2 n s hs, hf]
      show (mapE _ _ >>= _) = _
      rw [h1]
      rfl
  obtain ⟨cs', h1, h2⟩ := key 0 flows cs hall
  obtain ⟨k1, k2⟩ := C84_orientations net hnet cs cs' he h2 preds hp
  have hcne' : cs' ≠ [] := by
    rintro rfl
    cases h2
    exact hcne rfl
  exact ⟨cs', h1, C84_batches net cs' hcne' k1 preds k2⟩

/-- Inference over the validation loader after a change of orientations. -/
theorem valid_inference (net : OrientNet R) (hnet : net.Blind) {ds : CochainDataset R L} {train val val' : List (Cochain R L)}
    (hds : IsSplit ds train val') (hne : val ≠ []) (he : ∀ c ∈ val, EdgeOnly c) (hr : List.Forall₂ Reoriented val val')
    {preds : List R} (hp : List.Forall₂ (fun c p => (fromCochainList [c] >>= net.forward 𝕜) = .ok [p]) val preds)
    {b : Nat} (hb : 0 < b) : (cochainLoader ds "valid" none b >>= infer (net.forward 𝕜)) = .ok preds := by
  obtain ⟨k1, k2⟩ := C84_orientations net hnet val val' he hr preds hp
  have hne' : val' ≠ [] := by
    rintro rfl
    cases hr
    exact hne rfl
  obtain ⟨c1, c2, -⟩ := chunks_spec hb val'
  rw [(C84_loaders ds train val' hds b hb).1]
  exact C84_inference_does_not_depend_on_batches net val' hne' k1 preds k2 _ (fun d hd => (c2 d hd).1) c1

/-- **C84** End to end for the flow dataset: whatever orientations are chosen and drawn, the dataset can be made, and a
network that is blind to orientations and works on every validation sample alone makes the same predictions over the
validation loader, for every batch size. -/
theorem C84_flow_predictions [LinearOrder D] (lib : SparseLib) (hlib : lib.Correct) (rg : FlowRegions P) (dist : P → P → D)
    (toRow : Int → R) (points : List P) (simplices : List Tri) (ht : Triangulates points simplices)
    (hdiff : DifferentTriangles simplices)
    (numTrain numTest : Nat) (trainO testO : String) (trainD testD : SampleDraws) (train test : List (Cochain R Nat))
    (G : FlowGraph)
    (h : loadFlowDataset lib rg dist toRow points simplices numTrain numTest trainO testO trainD testD =
      .ok (train, test, G)) (hne : 0 < numTest)
    (net : OrientNet R) (hnet : net.Blind) (preds : List R)
    (hp : List.Forall₂ (fun c p => (fromCochainList [c] >>= net.forward 𝕜) = .ok [p]) test preds)
    (trainO' testO' : String) (ho : KnownOrientation trainO') (ho' : KnownOrientation testO')
    (trainBits testBits : Nat → Nat → Bool) :
    ∃ train' test', loadFlowDataset lib rg dist toRow points simplices numTrain numTest trainO' testO'
        ⟨trainBits, trainD.draws⟩ ⟨testBits, testD.draws⟩ = .ok (train', test', G) ∧
      ∀ b, 0 < b →
        (cochainLoader (flowDataset train' test' numTrain numTest) "valid" none b >>= infer (net.forward 𝕜)) = .ok preds := by
  have hex : ∃ t ∈ simplices, Outside points rg.hole1 t ∧ Outside points rg.hole2 t := by
    unfold loadFlowDataset at h
    obtain ⟨r, hr, -⟩ := bind_eq_ok.mp h
    exact flowTriangulation_some ht hr
  obtain ⟨points', triangles', ρ, G', B1, B2, edges, wh, -, hG, hs, hdict, hel, hb, heq⟩ :=
    loadFlowDataset_eq lib hlib rg dist toRow ht hdiff hex
  rw [heq] at h
  obtain ⟨tr, h1, h⟩ := bind_eq_ok.mp h
  obtain ⟨te, h2, h⟩ := bind_eq_ok.mp h
  rw [ok_inj, Prod.mk.injEq, Prod.mk.injEq] at h
  obtain ⟨rfl, rfl, rfl⟩ := h
  obtain ⟨a1, -, -, a4⟩ := flowSamples_done hlib rg dist toRow hG hdict hel hb h1
  obtain ⟨b1, -, b3, b4⟩ := flowSamples_done hlib rg dist toRow hG hdict hel hb h2
  obtain ⟨train', e1, r1⟩ := a4 trainO' trainBits ho
  obtain ⟨test', e2, r2⟩ := b4 testO' testBits ho'
  refine ⟨train', test', by rw [heq, e1, ok_bind, e2, ok_bind], fun b hb0 => ?_⟩
  refine valid_inference net hnet (train := train') ⟨rfl, ?_, ?_, rfl⟩ ?_ b3 r2 hp hb0
  · rw [← r1.length_eq, a1]; rfl
  · rw [← r1.length_eq, ← r2.length_eq, a1, b1]; rfl
  · rintro rfl
    simp at b1
    omega

end nets

/-! ### Examples -/

section Examples

/-- Points on a line, named by their numbers. -/
def mesh : List Nat := [0, 1, 2, 3, 4]

/-- A strip of triangles, the last of which meets the hole. -/
def meshTriangles : List Tri := [(0, 1, 2), (2, 1, 3), (3, 2, 4)]

/-- Regions of one point each; the second hole is outside the strip. -/
def meshRegions : FlowRegions Nat where
  start p := p == 0
  stop p := p == 3
  bot p := p == 1
  top p := p == 2
  hole1 p := p == 4
  hole2 p := p == 9

def gap (a b : Nat) : Nat := (a - b) + (b - a)

def meshDraws : SampleDraws := ⟨fun i k => (i + k) % 2 == 0, fun _ => [⟨0, 0, 0, fun _ => (false, 0)⟩]⟩

theorem mesh_triangulates : Triangulates mesh meshTriangles := ⟨by decide, by decide, by decide⟩
/-- The strip without the last triangle. -/
theorem mesh_with_holes (rg : FlowRegions Nat) (h1 : rg.hole1 = fun p => p == 4) (h2 : rg.hole2 = fun p => p == 9) :
    flowTriangulation rg mesh meshTriangles = .ok ([0, 1, 2, 3], [(0, 1, 2), (2, 1, 3)]) := by
  have e1 : createHole mesh meshTriangles (fun p => p == 4) = .ok ([0, 1, 2, 3], [(0, 1, 2), (2, 1, 3)]) := by
    decide +kernel
  have e2 : createHole [0, 1, 2, 3] [(0, 1, 2), (2, 1, 3)] (fun p => p == 9) =
      .ok ([0, 1, 2, 3], [(0, 1, 2), (2, 1, 3)]) := by
    decide +kernel
  unfold flowTriangulation
  rw [h1, h2, checkCovered_ok mesh_triangulates, ok_bind, e1, ok_bind]
  have c1 : checkCovered [0, 1, 2, 3] [(0, 1, 2), (2, 1, 3)] = .ok () := by decide +kernel
  have c2 : checkExtremes [0, 1, 2, 3] [(0, 1, 2), (2, 1, 3)] = .ok () := by decide +kernel
  simp only [c1, ok_bind, e2, c2]
  rfl

theorem mesh_different : DifferentTriangles meshTriangles := by
  rw [differentTriangles_iff]
  simp [meshTriangles, Tri.corners]
  refine ⟨⟨⟨0, by decide⟩, ⟨0, by decide⟩⟩, ⟨1, by decide⟩⟩

/-- All regions are met outside the holes. -/
example : MeetsRegion meshRegions mesh meshTriangles meshRegions.start ∧
    MeetsRegion meshRegions mesh meshTriangles meshRegions.stop ∧
    MeetsRegion meshRegions mesh meshTriangles meshRegions.bot ∧
    MeetsRegion meshRegions mesh meshTriangles meshRegions.top := by
  refine ⟨⟨(0, 1, 2), by decide, ?_, ?_, 0, by decide, 0, rfl, rfl⟩, ⟨(2, 1, 3), by decide, ?_, ?_, 3, by decide, 3, rfl, rfl⟩,
    ⟨(0, 1, 2), by decide, ?_, ?_, 1, by decide, 1, rfl, rfl⟩, ⟨(0, 1, 2), by decide, ?_, ?_, 2, by decide, 2, rfl, rfl⟩⟩ <;>
  · intro v hv p hp
    simp [Tri.corners] at hv
    rcases hv with rfl | rfl | rfl <;> simp [mesh] at hp <;> subst hp <;> decide

/-- The edges of the strip with a path; `u` and `l` are the orientations of the adjacencies. -/
def meshItem (x : List ℚ) (y : Nat) (u l : List Int) : Cochain ℚ Nat where
  dim := 1
  x := some x
  upperIndex := some [(1, 0), (0, 1), (2, 0), (0, 2), (2, 1), (1, 2), (3, 2), (2, 3), (4, 2), (2, 4), (4, 3), (3, 4)]
  lowerIndex := some [(1, 0), (0, 1), (2, 0), (0, 2), (2, 1), (1, 2), (3, 1), (1, 3), (3, 2), (2, 3), (4, 0), (0, 4),
    (4, 2), (2, 4), (4, 3), (3, 4)]
  upperOrient := some u
  lowerOrient := some l
  y := some [y]

/-- The paths 0-1-3 and 0-2-3 with default orientations. -/
def meshDefault : List (Cochain ℚ Nat) :=
  [meshItem [1, 0, 0, 0, 1] 0 [-1, -1, 1, 1, -1, -1, 1, 1, -1, -1, -1, -1] [1, 1, -1, -1, 1, 1, -1, -1, -1, -1, -1, -1, 1, 1, 1, 1],
   meshItem [0, 1, 0, 1, 0] 1 [-1, -1, 1, 1, -1, -1, 1, 1, -1, -1, -1, -1] [1, 1, -1, -1, 1, 1, -1, -1, -1, -1, -1, -1, 1, 1, 1, 1]]

/-- The same paths with every other edge reversed. -/
def meshRandom : List (Cochain ℚ Nat) :=
  [meshItem [1, 0, 0, 0, 1] 0 [1, 1, 1, 1, 1, 1, -1, -1, -1, -1, 1, 1] [-1, -1, -1, -1, -1, -1, -1, -1, 1, 1, -1, -1, 1, 1, -1, -1],
   meshItem [0, 1, 0, 1, 0] 1 [1, 1, 1, 1, 1, 1, -1, -1, -1, -1, 1, 1] [-1, -1, -1, -1, -1, -1, -1, -1, 1, 1, -1, -1, 1, 1, -1, -1]]

/-- The dataset of these paths can be made, with both kinds of orientations. -/
example : (do
      let r ← loadFlowDataset rowMajorLib meshRegions gap (fun k => (k : ℚ)) mesh meshTriangles 2 2 "default" "random"
        meshDraws meshDraws
      return (r.1, r.2.1) : Py _) = .ok (meshDefault, meshRandom) := by
  unfold loadFlowDataset
  rw [mesh_with_holes meshRegions rfl rfl, ok_bind]
  decide +kernel

/-- A network that is blind to orientations. -/
theorem orientQ_blind : orientQ.Blind where
  abs r := by
    simp only [orientQ]
    rcases lt_trichotomy r 0 with h | h | h
    · rw [if_pos (by linarith), if_neg (by linarith)]
    · subst h
      simp
    · rw [if_neg (by linarith), if_pos (by linarith)]
      simp
  layers := .inl ⟨rfl, fun l hl => by
    simp only [orientQ, List.mem_cons, List.not_mem_nil, or_false, or_self] at hl
    rw [hl]
    exact oddQ_equivariant⟩

/-- Every sample has a prediction alone. -/
example : mapE (fun c => fromCochainList [c] >>= orientQ.forward ℚ) meshDefault =
      .ok [[252834289366951 / 531441], [252834289366951 / 531441]] := by
  decide +kernel

/-- The predictions over the validation loader. -/
example : (cochainLoader (flowDataset meshDefault meshRandom 2 2) "valid" none 2 >>= infer (orientQ.forward ℚ)) =
    .ok [252834289366951 / 531441, 252834289366951 / 531441] := by
  decide +kernel

/-- The training loader with an order, and the missing test split. -/
example : (do
      let bs ← cochainLoader (flowDataset meshDefault meshRandom 2 2) "train" (some [1, 0]) 1
      return bs.map fun b => (b.x, b.batch) : Py _) =
    .ok [(some [0, 1, 0, 1, 0], some [0, 0, 0, 0, 0]), (some [1, 0, 0, 0, 1], some [0, 0, 0, 0, 0])] ∧
    cochainLoader (flowDataset meshDefault meshRandom 2 2) "test" none 1 = .error .assertion := by
  decide +kernel

end Examples

/-- Regions for which the end is next to the start. -/
def nearRegions : FlowRegions Nat := ⟨fun p => p == 0, fun p => p == 2, fun p => p == 1, fun p => p == 3, fun p => p == 4, fun p => p == 9⟩

/-- Every first step is random, to the second neighbour. -/
def nearDraws : SampleDraws := ⟨fun _ _ => true, fun _ => [⟨0, 0, 0, fun _ => (true, 1)⟩]⟩

theorem near_flows : (do
      let r ← loadFlowDataset rowMajorLib nearRegions gap (fun k => k) mesh meshTriangles 2 0 "default" "default" nearDraws nearDraws
      return (r.2.1.map (fun c => c.x), r.1.map fun c => (c.x, c.y)) : Py _) =
    .ok ([], [(some [0, 1, 0, 0, 0], some [0]), (some [0, 1, 0, 0, 0], some [1])]) := by
  unfold loadFlowDataset
  rw [mesh_with_holes nearRegions rfl rfl, ok_bind]
  decide +kernel

theorem two_samples {G : Type} {x : List Int} {r : Py (List (Cochain Int Nat) × List (Cochain Int Nat) × G)}
    (h : (do let r ← r; return (r.2.1.map (fun c => c.x), r.1.map fun c => (c.x, c.y)) : Py _) =
      .ok ([], [(some x, some [0]), (some x, some [1])])) :
    ∃ train g c d, r = .ok (train, [], g) ∧ train[0]? = some c ∧ train[1]? = some d ∧ c.x = d.x ∧ c.y = some [0] ∧
      d.y = some [1] := by
  obtain ⟨⟨train, test, g⟩, h1, h2⟩ := bind_eq_ok.mp h
  have h2 := ok_inj.mp h2
  rw [Prod.mk.injEq] at h2
  obtain ⟨h2, h3⟩ := h2
  obtain rfl := List.map_eq_nil_iff.mp h2
  clear h2
  obtain ⟨c, cs, rfl, hc, h3⟩ := List.map_eq_cons_iff.mp h3
  obtain ⟨d, ds, rfl, hd, h3⟩ := List.map_eq_cons_iff.mp h3
  rw [Prod.mk.injEq] at hc hd
  exact ⟨_, g, c, d, h1, rfl, rfl, by rw [hc.1, hd.1], hc.2, hd.2⟩

/-- **C84** The class of a sample is that of the checkpoint it was sent to, not of one it passed: a random step can lead to
the end before, and then samples of both classes can have the same flow. -/
theorem C84_classes_can_share_a_flow :
    ∃ (points : List Nat) (simplices : List Tri) (rg : FlowRegions Nat) (draws : SampleDraws)
      (train : List (Cochain Int Nat)) (G : FlowGraph) (c d : Cochain Int Nat),
      Triangulates points simplices ∧ DifferentTriangles simplices ∧
      loadFlowDataset rowMajorLib rg gap (fun k => k) points simplices 2 0 "default" "default" draws draws =
        .ok (train, [], G) ∧
      train[0]? = some c ∧ train[1]? = some d ∧ c.x = d.x ∧ c.y = some [0] ∧ d.y = some [1] := by
  obtain ⟨train, G, c, d, h⟩ := two_samples near_flows
  exact ⟨mesh, meshTriangles, nearRegions, nearDraws, train, G, c, d, mesh_triangulates, mesh_different, h⟩

end Verif
