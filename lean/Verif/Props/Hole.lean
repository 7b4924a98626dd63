import Verif.Lemmas.Hole

/-!
# Properties of cutting a hole into a triangulation (C45)
-/

namespace Verif

variable {P : Type}

/-- A triangle without corners in the region. -/
def Outside (points : List P) (inside : P → Bool) (t : Tri) : Prop :=
  ∀ v ∈ t.corners, ∀ p, points[v]? = some p → inside p = false

/-- A vertex of one of the triangles that are kept. -/
def Remains (points : List P) (inside : P → Bool) (triangles : List Tri) (v : Nat) : Prop :=
  ∃ t ∈ triangles, Outside points inside t ∧ v ∈ t.corners

theorem outside_iff {points : List P} {inside : P → Bool} {t : Tri} :
    (t.corners.all fun v => !(points[v]?.any inside)) = true ↔ Outside points inside t := by
  unfold Outside
  rw [List.all_eq_true]
  constructor
  · intro h v hv p hp
    have := h v hv
    rw [hp] at this
    simpa using this
  · intro h v hv
    cases hp : points[v]? with
    | none => rfl
    | some p => simp [h v hv p hp]

instance (points : List P) (inside : P → Bool) (t : Tri) : Decidable (Outside points inside t) :=
  decidable_of_iff _ outside_iff

/-- **C45** Cutting a hole. It succeeds when all corners are points and some triangle has no corner in the
region. Then the triangles without corners in the region are kept, in their order, with the vertices renamed by
an increasing map that keeps the coordinates; the remaining points are exactly those of the kept triangles, in
their order. -/
theorem C45_create_hole (points : List P) (triangles : List Tri) (inside : P → Bool)
    (hc : ∀ t ∈ triangles, ∀ v ∈ t.corners, v < points.length)
    (hk : ∃ t ∈ triangles, Outside points inside t) :
    ∃ points' triangles' ρ, createHole points triangles inside = .ok (points', triangles') ∧
      triangles' = (triangles.filter fun t => decide (Outside points inside t)).map (Tri.map ρ) ∧
      (∀ v, Remains points inside triangles v → ρ v < points'.length ∧ points'[ρ v]? = points[v]?) ∧
      (∀ u v, Remains points inside triangles u → Remains points inside triangles v → u < v → ρ u < ρ v) ∧
      (∀ i, i < points'.length → ∃ v, Remains points inside triangles v ∧ ρ v = i) ∧
      (∀ t ∈ triangles', Outside points' inside t ∧ ∀ v ∈ t.corners, v < points'.length) ∧
      (∀ i, i < points'.length → ∃ t ∈ triangles', i ∈ t.corners) ∧
      points'.Sublist points := by
  obtain ⟨kept, hit, h1, h2, h3⟩ := scan_eq (inside := inside) hc
  have hkept : ∀ t, t ∈ kept ↔ t ∈ triangles ∧ Outside points inside t := by
    intro t
    rw [h2, List.mem_filter, outside_iff]
  have hfilter : kept = triangles.filter fun t => decide (Outside points inside t) := by
    rw [h2]
    apply List.filter_congr
    intro t _
    rw [Bool.eq_iff_iff, outside_iff, decide_eq_true_eq]
  have hne : kept ≠ [] := by
    obtain ⟨t, ht, ho⟩ := hk
    exact List.ne_nil_of_mem ((hkept t).mpr ⟨ht, ho⟩)
  obtain ⟨removed, hrem⟩ : ∃ removed, removed = hit ++ isolated points.length kept := ⟨_, rfl⟩
  have hrun : createHole points triangles inside = .ok
      ((points.zipIdx.filter fun p => !removed.contains p.2).map Prod.fst,
        kept.map (Tri.map (shiftVertex points.length removed))) := by
    unfold createHole
    rw [h1, ok_bind]
    simp only
    rw [if_neg hne, hrem]
    rfl
  -- the vertices that stay
  have hstay : ∀ v, v < points.length → (v ∉ removed ↔ Remains points inside triangles v) := by
    intro v hv
    rw [hrem, List.mem_append, h3]
    have hiso : v ∈ isolated points.length kept ↔ ¬ ∃ t ∈ kept, v ∈ t.corners := by
      unfold isolated
      rw [List.mem_filter]
      simp [hv]
    rw [hiso, not_or, not_not]
    constructor
    · rintro ⟨-, t, ht, hv⟩
      exact ⟨t, ((hkept t).mp ht).1, ((hkept t).mp ht).2, hv⟩
    · rintro ⟨t, h1, h2, h3⟩
      refine ⟨?_, t, (hkept t).mpr ⟨h1, h2⟩, h3⟩
      rintro ⟨t', -, -, p, h6, h7⟩
      rw [h2 v h3 p h6] at h7
      simp at h7
  have hlt : ∀ v, Remains points inside triangles v → v < points.length := by
    rintro v ⟨t, h1, -, h3⟩
    exact hc t h1 v h3
  have hρ : ∀ v, Remains points inside triangles v → shiftVertex points.length removed v = rank removed v :=
    fun v hv => renumber_eq (hlt v hv) ((hstay v (hlt v hv)).mpr hv)
  have hcoord : ∀ v, Remains points inside triangles v →
      ((points.zipIdx.filter fun p => !removed.contains p.2).map Prod.fst)[shiftVertex points.length removed v]? =
        points[v]? := by
    intro v hv
    rw [hρ v hv, List.getElem?_eq_getElem (hlt v hv)]
    exact kept_point (List.getElem?_eq_getElem (hlt v hv)) ((hstay v (hlt v hv)).mpr hv)
  have hin : ∀ v, Remains points inside triangles v → shiftVertex points.length removed v <
      ((points.zipIdx.filter fun p => !removed.contains p.2).map Prod.fst).length := by
    intro v hv
    have := hcoord v hv
    rw [List.getElem?_eq_getElem (hlt v hv)] at this
    exact lt_of_get this
  have hcover : ∀ i, i < ((points.zipIdx.filter fun p => !removed.contains p.2).map Prod.fst).length →
      ∃ v, Remains points inside triangles v ∧ shiftVertex points.length removed v = i := by
    intro i hi
    obtain ⟨v, h1, h2, h3⟩ := kept_place hi
    have hv := (hstay v h1).mp h2
    exact ⟨v, hv, (hρ v hv).trans h3⟩
  have hcorner : ∀ (f : Nat → Nat) (t : Tri), (t.map f).corners = t.corners.map f := fun f t => rfl
  refine ⟨_, _, shiftVertex points.length removed, hrun, by rw [hfilter],
    fun v hv => ⟨hin v hv, hcoord v hv⟩, ?_, hcover, ?_, ?_, ?_⟩
  · intro u v hu hv huv
    rw [hρ u hu, hρ v hv]
    exact rank_lt ((hstay u (hlt u hu)).mpr hu) huv
  · intro t' ht'
    obtain ⟨t, ht, rfl⟩ := List.mem_map.mp ht'
    obtain ⟨h4, h5⟩ := (hkept t).mp ht
    have hr : ∀ w ∈ t.corners, Remains points inside triangles w := fun w hw => ⟨t, h4, h5, hw⟩
    constructor
    · intro v hv p hp
      rw [hcorner] at hv
      obtain ⟨w, hw, rfl⟩ := List.mem_map.mp hv
      rw [hcoord w (hr w hw)] at hp
      exact h5 w hw p hp
    · intro v hv
      rw [hcorner] at hv
      obtain ⟨w, hw, rfl⟩ := List.mem_map.mp hv
      exact hin w (hr w hw)
  · intro i hi
    obtain ⟨v, ⟨t, h4, h5, h6⟩, rfl⟩ := hcover i hi
    refine ⟨_, List.mem_map.mpr ⟨t, (hkept t).mpr ⟨h4, h5⟩, rfl⟩, ?_⟩
    rw [hcorner]
    exact List.mem_map.mpr ⟨v, h6, rfl⟩
  · have h := (List.filter_sublist (p := fun p : P × Nat => !removed.contains p.2) (l := points.zipIdx)).map Prod.fst
    rwa [List.zipIdx_map_fst] at h

/-- **C45** What is rejected: a triangle with a corner that is not a point, and a region that hits every
triangle. -/
theorem C45_rejected (points : List P) (triangles : List Tri) (inside : P → Bool)
    (h : (∃ t ∈ triangles, ∃ v ∈ t.corners, points.length ≤ v) ∨
      ∀ t ∈ triangles, ¬ Outside points inside t) :
    createHole points triangles inside = .error .index := by
  by_cases hc : ∀ t ∈ triangles, ∀ v ∈ t.corners, v < points.length
  · obtain ⟨kept, hit, h1, h2, -⟩ := scan_eq (inside := inside) hc
    have hnil : kept = [] := by
      rw [h2, List.filter_eq_nil_iff]
      intro t ht
      rw [outside_iff]
      rcases h with ⟨t', ht', v, hv, hle⟩ | h
      · have := hc t' ht' v hv
        omega
      · exact h t ht
    unfold createHole
    rw [h1, ok_bind]
    simp only
    rw [if_pos hnil]
  · unfold createHole
    rw [scan_error _ hc, error_bind]

/-- **C45** The holes of the flow dataset are closed rectangles. After cutting two of them, one after the other, no point
lies in either of them, and every point is a corner of a triangle. -/
theorem C45_two_rectangles {K : Type} [LE K] [DecidableLE K] (points : List (K × K)) (triangles : List Tri)
    (lo hi lo' hi' : K × K) (points' points'' : List (K × K)) (triangles' triangles'' : List Tri)
    (h : createHole points triangles (fun p => insideRectangle p lo hi) = .ok (points', triangles'))
    (h' : createHole points' triangles' (fun p => insideRectangle p lo' hi') = .ok (points'', triangles'')) :
    (∀ p ∈ points'', ¬ ((lo.1 ≤ p.1 ∧ p.1 ≤ hi.1) ∧ lo.2 ≤ p.2 ∧ p.2 ≤ hi.2) ∧
      ¬ ((lo'.1 ≤ p.1 ∧ p.1 ≤ hi'.1) ∧ lo'.2 ≤ p.2 ∧ p.2 ≤ hi'.2)) ∧
    (∀ i, i < points''.length → ∃ t ∈ triangles'', i ∈ t.corners) ∧ points''.Sublist points := by
  have cut : ∀ {points : List (K × K)} {triangles : List Tri} {lo hi : K × K} {points' : List (K × K)}
      {triangles' : List Tri}, createHole points triangles (fun p => insideRectangle p lo hi) = .ok (points', triangles') →
      (∀ p ∈ points', ¬ ((lo.1 ≤ p.1 ∧ p.1 ≤ hi.1) ∧ lo.2 ≤ p.2 ∧ p.2 ≤ hi.2)) ∧
        (∀ i, i < points'.length → ∃ t ∈ triangles', i ∈ t.corners) ∧ points'.Sublist points := by
    intro points triangles lo hi points' triangles' h
    by_cases hbad : (∃ t ∈ triangles, ∃ v ∈ t.corners, points.length ≤ v) ∨
        ∀ t ∈ triangles, ¬ Outside points (fun p => insideRectangle p lo hi) t
    · rw [C45_rejected _ _ _ hbad] at h
      cases h
    · push Not at hbad
      obtain ⟨p', t', ρ, e, -, -, -, -, hout, hcorner, hsub⟩ := C45_create_hole points triangles _ hbad.1 hbad.2
      rw [e, ok_inj, Prod.mk.injEq] at h
      obtain ⟨rfl, rfl⟩ := h
      refine ⟨?_, hcorner, hsub⟩
      intro p hp hin
      obtain ⟨i, hi, rfl⟩ := List.getElem_of_mem hp
      obtain ⟨t, ht, hit⟩ := hcorner i hi
      have := (hout t ht).1 i hit _ (List.getElem?_eq_getElem hi)
      simp [insideRectangle, hin.1.1, hin.1.2, hin.2.1, hin.2.2] at this
  obtain ⟨a1, -, a3⟩ := cut h
  obtain ⟨b1, b2, b3⟩ := cut h'
  exact ⟨fun p hp => ⟨a1 p (b3.subset hp), b1 p hp⟩, b2, b3.trans a3⟩

/-- Two corners cut from a square with a point in the middle. -/
example := C45_two_rectangles [(0, 0), (4, 0), (2, 2), (0, 4), (4, 4)] [(0, 1, 2), (1, 4, 2), (3, 2, 4), (0, 2, 3)]
  (0, 0) (1, 1) (3, 0) (4, 1) [(4, 0), (2, 2), (0, 4), (4, 4)] [(2, 2), (0, 4), (4, 4)] [(0, 3, 1), (2, 1, 3)] [(1, 0, 2)]
  (by decide +kernel) (by decide +kernel)

/-- Five points and four triangles around point 2; the region contains point 0 only. -/
example : createHole [(0, 0), (4, 0), (2, 2), (0, 4), (4, 4)] [(0, 1, 2), (1, 4, 2), (3, 2, 4), (0, 2, 3)]
      (fun p : Nat × Nat => insideRectangle p (0, 0) (1, 1)) =
    .ok ([(4, 0), (2, 2), (0, 4), (4, 4)], [(0, 3, 1), (2, 1, 3)]) := by decide +kernel

/-- Removing the hole can leave a point outside the region without triangles; it is removed as well. -/
example : createHole [(0, 0), (4, 0), (2, 2), (0, 4), (4, 4), (9, 9)]
      [(0, 1, 2), (1, 2, 4), (3, 2, 4), (0, 2, 3), (0, 5, 1)]
      (fun p : Nat × Nat => insideRectangle p (0, 0) (1, 1)) =
    .ok ([(4, 0), (2, 2), (0, 4), (4, 4)], [(0, 1, 3), (2, 1, 3)]) := by decide +kernel

example : createHole [(0, 0), (4, 0), (2, 2)] [(0, 1, 2)] (fun p : Nat × Nat => insideRectangle p (0, 0) (9, 9)) =
    .error .index := by decide +kernel

end Verif
