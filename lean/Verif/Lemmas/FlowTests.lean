import Verif.Model.FlowTests
import Verif.Props.OceanDataset

/-! # What the tests of the edge-flow data check -/

namespace Verif

variable {R L P D : Type}

theorem extremes_of {points : List P} {triangles : List Tri} (hc : ∀ t ∈ triangles, ∀ v ∈ t.corners, v < points.length)
    (hv : ∀ i, i < points.length → ∃ t ∈ triangles, i ∈ t.corners) (hne : triangles ≠ []) :
    checkExtremes points triangles = .ok () := by
  obtain ⟨t, ht⟩ := List.exists_mem_of_ne_nil _ hne
  have hpos : 0 < points.length := Nat.lt_of_le_of_lt (Nat.zero_le _) (hc t ht t.1 (by simp [Tri.corners]))
  have hmem : ∀ v, v ∈ triangles.flatMap Tri.corners ↔ v < points.length := by
    intro v
    rw [List.mem_flatMap]
    exact ⟨fun ⟨t, h1, h2⟩ => hc t h1 v h2, fun h => hv v h⟩
  have e1 : (triangles.flatMap Tri.corners).min? = some 0 := by
    rw [List.min?_eq_some_iff]
    exact ⟨(hmem 0).mpr hpos, fun b _ => Nat.zero_le b⟩
  have e2 : (triangles.flatMap Tri.corners).max? = some (points.length - 1) := by
    rw [List.max?_eq_some_iff]
    exact ⟨(hmem _).mpr (by omega), fun b hb => by have := (hmem b).mp hb; omega⟩
  unfold checkExtremes
  rw [e1, e2]
  show (pyAssert (decide (0 = 0)) >>= fun _ => pyAssert (decide (points.length - 1 + 1 = points.length))) = _
  have a1 : pyAssert (decide (0 = 0)) = .ok () := rfl
  rw [a1, ok_bind, pyAssert_eq_ok]
  simp only [decide_eq_true_eq]
  omega

/-! ### Adjacencies -/

/-- Signs of incidence. -/
def IsSign (sgn : Nat → Nat → Int) : Prop := ∀ k e, sgn k e = 0 ∨ sgn k e = 1 ∨ sgn k e = -1

theorem AdjacencyOf.signs {rows cols : Nat} {sgn : Nat → Nat → Int} {index : List (Nat × Nat)} {orient : List Int}
    (h : AdjacencyOf rows cols sgn index orient) (hs : IsSign sgn) : allSigns orient = true := by
  have hall : ∀ o ∈ orient, o = 1 ∨ o = -1 := by
    intro o ho
    obtain ⟨p, hp, rfl⟩ := List.getElem_of_mem ho
    have hp' : p < index.length := by rw [← h.length]; exact hp
    have hi := List.getElem?_eq_getElem hp'
    generalize index[p] = q at hi
    obtain ⟨e, f⟩ := q
    obtain ⟨-, -, -, k, hk, h1, h2⟩ := (h.mem e f).mp (List.mem_of_getElem? hi)
    have := h.orient p e f _ hi (List.getElem?_eq_getElem hp) k hk h1 h2
    rw [this]
    rcases hs k e with a | a | a <;> rcases hs k f with b | b | b <;> simp [a, b] at h1 h2 ⊢
  unfold allSigns
  rw [beq_iff_eq]
  clear h
  induction orient with
  | nil => rfl
  | cons o l ih =>
    have := ih fun x hx => hall x (by simp [hx])
    rcases hall o (by simp) with rfl | rfl
    · simp only [List.count_cons, List.length_cons, ← this]
      simp
      omega
    · simp only [List.count_cons, List.length_cons, ← this]
      simp
      omega

theorem AdjacencyOf.max {rows cols : Nat} {sgn : Nat → Nat → Int} {index : List (Nat × Nat)} {orient : List Int}
    (h : AdjacencyOf rows cols sgn index orient) (hne : index ≠ []) : ∃ m, maxEntry index = .ok m ∧ m < cols := by
  unfold maxEntry
  cases hm : (index.flatMap fun p => [p.1, p.2]).max? with
  | none =>
    rw [List.max?_eq_none_iff, List.flatMap_eq_nil_iff] at hm
    obtain ⟨p, hp⟩ := List.exists_mem_of_ne_nil _ hne
    exact absurd (hm p hp) (by simp)
  | some m =>
    refine ⟨m, rfl, ?_⟩
    have := (List.max?_eq_some_iff.mp hm).1
    obtain ⟨p, hp, hmp⟩ := List.mem_flatMap.mp this
    have hq := (h.mem p.1 p.2).mp hp
    simp only [List.mem_cons, List.not_mem_nil, or_false] at hmp
    rcases hmp with rfl | rfl
    · exact hq.1
    · exact hq.2.1

theorem maxEntry_nil : maxEntry [] = .error .runtime := rfl

theorem endSign_sign (q : Nat × Nat) (v : Nat) : endSign q v = 0 ∨ endSign q v = 1 ∨ endSign q v = -1 := by
  unfold endSign
  split
  · exact .inr (.inl rfl)
  · split
    · exact .inr (.inr rfl)
    · exact .inl rfl

theorem sideSign_sign (t : Nat × Nat × Nat) (q : Nat × Nat) : sideSign t q = 0 ∨ sideSign t q = 1 ∨ sideSign t q = -1 := by
  unfold sideSign
  split
  · exact .inr (.inl rfl)
  · split
    · exact .inr (.inr rfl)
    · exact .inl rfl

theorem mul_sign {a b : Int} (ha : a = 1 ∨ a = -1) (hb : b = 0 ∨ b = 1 ∨ b = -1) : a * b = 0 ∨ a * b = 1 ∨ a * b = -1 := by
  rcases ha with rfl | rfl <;> rcases hb with rfl | rfl | rfl <;> simp

theorem sideSign_ne {t : Tri} {u v : Nat} (hu : u ∈ t.corners) (hv : v ∈ t.corners) (hne : u ≠ v) :
    sideSign t (u, v) ≠ 0 := by
  unfold sideSign
  split
  · decide
  · next h1 =>
    rw [if_pos]
    · decide
    · simp only [Tri.mem_corners] at hu hv
      simp only [List.mem_cons, Prod.mk.injEq, List.not_mem_nil, or_false, Prod.swap_prod_mk] at h1 ⊢
      rcases hu with rfl | rfl | rfl <;> rcases hv with rfl | rfl | rfl <;> simp_all

/-- Two sides of a triangle with a common corner. -/
theorem two_sides {t : Tri} (hd : t.1 ≠ t.2.1 ∧ t.2.1 ≠ t.2.2 ∧ t.2.2 ≠ t.1) {edges : List (Nat × Nat)}
    (he : ∀ u v, u < v → u ∈ t.corners → v ∈ t.corners → (u, v) ∈ edges) :
    ∃ (e f : Nat) (p q : Nat × Nat) (w : Nat), e ≠ f ∧ edges[e]? = some p ∧ edges[f]? = some q ∧ w ∈ t.corners ∧
      sideSign t p ≠ 0 ∧ sideSign t q ≠ 0 ∧ endSign p w ≠ 0 ∧ endSign q w ≠ 0 := by
  have key : ∀ a ∈ t.corners, ∀ b ∈ t.corners, a ≠ b → ∃ (e : Nat) (p : Nat × Nat), edges[e]? = some p ∧ sideSign t p ≠ 0 ∧
      endSign p a ≠ 0 ∧ endSign p b ≠ 0 ∧ (∀ x, endSign p x ≠ 0 → x = a ∨ x = b) := by
    intro a ha b hb hab
    have hends : ∀ u v, u < v → endSign (u, v) u ≠ 0 ∧ endSign (u, v) v ≠ 0 ∧
        ∀ x, endSign (u, v) x ≠ 0 → x = u ∨ x = v := by
      intro u v huv
      refine ⟨?_, ?_, ?_⟩
      · simp [endSign, Nat.ne_of_lt huv]
      · simp [endSign]
      · intro x hx
        unfold endSign at hx
        by_cases h1 : x = v
        · exact .inr h1
        · by_cases h2 : x = u
          · exact .inl h2
          · rw [if_neg h1, if_neg h2] at hx
            exact absurd rfl hx
    rcases Nat.lt_or_gt_of_ne hab with h | h
    · obtain ⟨e, he', hp⟩ := List.getElem_of_mem (he a b h ha hb)
      obtain ⟨x1, x2, x3⟩ := hends a b h
      exact ⟨e, (a, b), by rw [List.getElem?_eq_getElem he', hp], sideSign_ne ha hb hab, x1, x2, x3⟩
    · obtain ⟨e, he', hp⟩ := List.getElem_of_mem (he b a h hb ha)
      obtain ⟨x1, x2, x3⟩ := hends b a h
      exact ⟨e, (b, a), by rw [List.getElem?_eq_getElem he', hp], sideSign_ne hb ha (Ne.symm hab), x2, x1,
        fun x hx => (x3 x hx).symm⟩
  have c1 : t.1 ∈ t.corners := by simp [Tri.corners]
  have c2 : t.2.1 ∈ t.corners := by simp [Tri.corners]
  have c3 : t.2.2 ∈ t.corners := by simp [Tri.corners]
  obtain ⟨e, p, a1, a2, a3, a4, a5⟩ := key _ c1 _ c2 hd.1
  obtain ⟨f, q, b1, b2, b3, b4, b5⟩ := key _ c2 _ c3 hd.2.1
  refine ⟨e, f, p, q, t.2.1, ?_, a1, b1, c2, a2, b2, a4, b3⟩
  rintro rfl
  rw [a1, Option.some.injEq] at b1
  subst b1
  rcases a5 _ b4 with h | h
  · exact hd.2.2 h
  · exact hd.2.1 h.symm

section item
variable [AddCommGroup R] {vertices : List Nat} {edges : List (Nat × Nat)} {triangles : List Tri} {s : Nat → Int}
  {row : Nat × Nat → R} {label : L} {c : Cochain R L}

theorem lower_sign (hs : Signs s) : IsSign fun v e =>
    s e * ((edges[e]?.map fun q => (vertices[v]?.map fun w => endSign q w).getD 0).getD 0) := by
  intro k e
  refine mul_sign (hs e) ?_
  cases edges[e]? with
  | none => exact .inl rfl
  | some q =>
    cases vertices[k]? with
    | none => exact .inl rfl
    | some w => exact endSign_sign q w

theorem upper_sign (hs : Signs s) : IsSign fun i e =>
    s e * ((edges[e]?.map fun q => (triangles[i]?.map fun t => sideSign t q).getD 0).getD 0) := by
  intro k e
  refine mul_sign (hs e) ?_
  cases edges[e]? with
  | none => exact .inl rfl
  | some q =>
    cases triangles[k]? with
    | none => exact .inl rfl
    | some t => exact sideSign_sign t q

theorem lt_of_getElem? {A : Type} {l : List A} {i : Nat} {a : A} (h : l[i]? = some a) : i < l.length := by
  by_contra hn
  rw [List.getElem?_eq_none (by omega)] at h
  cases h

/-- The checks pass on a cochain over a complex with a triangle. -/
theorem checkAdjacencies_ok (hs : Signs s) (h : FlowItem vertices edges triangles s row label c) {t : Tri}
    (ht : t ∈ triangles) (hd : t.1 ≠ t.2.1 ∧ t.2.1 ≠ t.2.2 ∧ t.2.2 ≠ t.1)
    (he : ∀ u v, u < v → u ∈ t.corners → v ∈ t.corners → (u, v) ∈ edges) (hv : ∀ w ∈ t.corners, w ∈ vertices) :
    checkAdjacencies c = .ok () := by
  obtain ⟨li, lo, l1, l2, l3⟩ := h.lower
  obtain ⟨ui, uo, u1, u2, u3⟩ := h.upper
  obtain ⟨e, f, p, q, w, hef, he1, hf1, hw, hp, hq, hpw, hqw⟩ := two_sides hd he
  have hse : s e ≠ 0 := by rcases hs e with h | h <;> rw [h] <;> decide
  have hsf : s f ≠ 0 := by rcases hs f with h | h <;> rw [h] <;> decide
  have hun : ui ≠ [] := by
    obtain ⟨i, hi, rfl⟩ := List.getElem_of_mem ht
    refine List.ne_nil_of_mem ((u3.mem e f).mpr ⟨lt_of_getElem? he1, lt_of_getElem? hf1, hef, i, hi, ?_, ?_⟩)
    · simp [he1, List.getElem?_eq_getElem hi, hse, hp]
    · simp [hf1, List.getElem?_eq_getElem hi, hsf, hq]
  have hln : li ≠ [] := by
    obtain ⟨i, hi, hiw⟩ := List.getElem_of_mem (hv w hw)
    refine List.ne_nil_of_mem ((l3.mem e f).mpr ⟨lt_of_getElem? he1, lt_of_getElem? hf1, hef, i, hi, ?_, ?_⟩)
    · simp [he1, List.getElem?_eq_getElem hi, hiw, hse, hpw]
    · simp [hf1, List.getElem?_eq_getElem hi, hiw, hsf, hqw]
  obtain ⟨mu, hmu, hmu'⟩ := u3.max hun
  obtain ⟨ml, hml, hml'⟩ := l3.max hln
  unfold checkAdjacencies
  rw [h.x, u1, u2, l1, l2]
  dsimp only
  rw [hmu, hml, u3.signs (upper_sign hs), l3.signs (lower_sign hs), u3.length, l3.length]
  simp [pyAssert, ok_bind, hmu', hml']

/-- Without triangles the upper index has no columns, and there is no maximum. -/
theorem checkAdjacencies_error (h : FlowItem vertices edges [] s row label c) : checkAdjacencies c = .error .runtime := by
  obtain ⟨li, lo, l1, l2, l3⟩ := h.lower
  obtain ⟨ui, uo, u1, u2, u3⟩ := h.upper
  have hun : ui = [] := by
    rw [List.eq_nil_iff_forall_not_mem]
    rintro ⟨e, f⟩ hm
    obtain ⟨-, -, -, k, hk, -⟩ := (u3.mem e f).mp hm
    simp at hk
  unfold checkAdjacencies
  rw [h.x, u1, u2, l1, l2]
  dsimp only
  rw [hun, maxEntry_nil, l3.length]
  have := u3.length
  rw [hun] at this
  rw [this]
  simp [pyAssert, ok_bind, error_bind]

end item

/-- The values of a path are directions. -/
theorem checkDirections_ok {vertices : List Nat} {edges : List (Nat × Nat)} {triangles : List Tri} {s : Nat → Int}
    (hs : Signs s) {path : List Nat} {label : L} {c : Cochain Int L}
    (h : FlowItem vertices edges triangles s (fun q => pathSign path q) label c) : checkDirections c = .ok () := by
  unfold checkDirections
  rw [h.x]
  dsimp only
  rw [pyAssert_eq_ok, beq_iff_eq]
  have hall : ∀ v ∈ edges.zipIdx.map (fun qe => s qe.2 • pathSign path qe.1), v = 0 ∨ v = 1 ∨ v = -1 := by
    intro v hv
    obtain ⟨qe, -, rfl⟩ := List.mem_map.mp hv
    rw [smul_eq_mul]
    refine mul_sign (hs _) ?_
    unfold pathSign
    split
    · exact .inr (.inl rfl)
    · split
      · exact .inr (.inr rfl)
      · exact .inl rfl
  revert hall
  generalize edges.zipIdx.map (fun qe => s qe.2 • pathSign path qe.1) = l
  intro hall
  induction l with
  | nil => rfl
  | cons o l ih =>
    have := ih fun x hx => hall x (by simp [hx])
    rcases hall o (by simp) with rfl | rfl | rfl
    · simp only [List.count_cons, List.countP_cons, ← this]
      simp
    · simp only [List.count_cons, List.countP_cons, ← this]
      simp
      omega
    · simp only [List.count_cons, List.countP_cons, ← this]
      simp
      omega

/-- Counting the labels. -/
theorem flowTestSteps : ∀ (cs : List (Cochain Int Nat)) (counts : Nat × Nat),
    (∀ c ∈ cs, checkDirections c = .ok () ∧ checkAdjacencies c = .ok () ∧ (c.y = some [0] ∨ c.y = some [1])) →
    foldE flowTestStep counts cs = .ok (counts.1 + (cs.map fun c => c.y).count (some [0]),
      counts.2 + (cs.map fun c => c.y).count (some [1]))
  | [], counts, _ => by simp [foldE]
  | c :: cs, counts, h => by
    obtain ⟨h1, h2, h3⟩ := h c (by simp)
    rw [foldE]
    have ih := fun k => flowTestSteps cs k fun x hx => h x (by simp [hx])
    have e : ∀ k, flowTestStep counts c = .ok k → foldE flowTestStep counts (c :: cs) = foldE flowTestStep k cs := by
      intro k hk
      rw [foldE, hk, ok_bind]
    rcases h3 with h3 | h3
    · have : flowTestStep counts c = .ok (counts.1 + 1, counts.2) := by
        unfold flowTestStep
        rw [h1, ok_bind, h2, ok_bind, countLabel, h3]
        rfl
      rw [this, ok_bind, ih]
      simp [h3, List.count_cons]
      omega
    · have : flowTestStep counts c = .ok (counts.1, counts.2 + 1) := by
        unfold flowTestStep
        rw [h1, ok_bind, h2, ok_bind, countLabel, h3]
        rfl
      rw [this, ok_bind, ih]
      simp [h3, List.count_cons]
      omega

/-- The labels of the samples of a split. -/
theorem labels_of {cs : List (Cochain Int Nat)} {n : Nat} (hn : cs.length = n)
    (h : ∀ i c, cs[i]? = some c → c.y = some [if i < n / 2 then 0 else 1]) :
    (cs.map fun c => c.y) = List.replicate (n / 2) (some [0]) ++ List.replicate (n - n / 2) (some [1]) := by
  apply List.ext_getElem
  · simp
    omega
  · intro i h1 h2
    rw [List.length_map] at h1
    rw [List.getElem_map, h i _ (List.getElem?_eq_getElem h1)]
    simp only [List.getElem_append, List.length_replicate, List.getElem_replicate, dite_eq_ite]
    split <;> rfl

end Verif
