import Verif.Spec.Walks
import Verif.Lemmas.FlowGraph
import Verif.Lemmas.Embed
import Verif.Props.RingData

/-!
# Lemmas about the trajectories of the flow dataset
-/

namespace Verif

variable {P D : Type}

theorem moves_cons (a b : Nat) (l : List Nat) : moves (a :: b :: l) = (a, b) :: moves (b :: l) := rfl

theorem moves_snoc (l : List Nat) (u v : Nat) : moves (l ++ [u] ++ [v]) = moves (l ++ [u]) ++ [(u, v)] := by
  induction l with
  | nil => rfl
  | cons a l ih =>
    cases l with
    | nil => rfl
    | cons b l =>
      simp only [List.cons_append] at ih ⊢
      rw [moves_cons, moves_cons, ih, List.cons_append]

theorem mem_of_moves {path : List Nat} {u v : Nat} (h : (u, v) ∈ moves path) : u ∈ path ∧ v ∈ path :=
  ⟨(List.of_mem_zip h).1, List.mem_of_mem_tail (List.of_mem_zip h).2⟩

/-- Whoever is on a path is its head or was moved to. -/
theorem head_or_moved {path : List Nat} {v : Nat} (h : v ∈ path) : path.head? = some v ∨ ∃ u, (u, v) ∈ moves path := by
  induction path with
  | nil => cases h
  | cons a l ih =>
    rcases List.mem_cons.mp h with rfl | h
    · exact .inl rfl
    · refine .inr ?_
      cases l with
      | nil => cases h
      | cons b l =>
        rw [moves_cons]
        rcases ih h with h' | ⟨u, h'⟩
        · obtain rfl := Option.some.inj h'
          exact ⟨a, List.mem_cons_self⟩
        · exact ⟨u, List.mem_cons_of_mem _ h'⟩

theorem FlowGraph.tuples_le {G : FlowGraph} {q : Nat × Nat} (h : q ∈ G.tuples) : q.1 ≤ q.2 := by
  obtain ⟨e, -, rfl⟩ := List.mem_map.mp h
  unfold ordered
  simp only
  omega

theorem FlowGraph.mem_neighbors {G : FlowGraph} {v w : Nat} {around : List Nat} (h : G.neighbors v = .ok around) :
    w ∈ around ↔ ordered v w ∈ G.tuples := by
  unfold FlowGraph.neighbors at h
  split at h
  · rw [ok_inj] at h
    subst h
    unfold FlowGraph.tuples
    rw [List.mem_filterMap, List.mem_map]
    constructor
    · rintro ⟨e, he, hw⟩
      refine ⟨e, he, ?_⟩
      split at hw
      · next h1 => rw [← h1, ← Option.some.inj hw]
      · split at hw
        · next h1 h2 => rw [← h2, ← Option.some.inj hw, ordered_comm]
        · cases hw
    · rintro ⟨e, he, hw⟩
      refine ⟨e, he, ?_⟩
      rcases ordered_eq_iff.mp hw with ⟨h1, h2⟩ | ⟨h1, h2⟩
      · rw [if_pos h1, h2]
      · by_cases h3 : e.1 = v
        · rw [if_pos h3]
          congr 1
          omega
        · rw [if_neg h3, if_pos h2, h1]
  · cases h

theorem FlowGraph.Wf.mem_nodes {G : FlowGraph} (wf : G.Wf) {u v : Nat} (h : ordered u v ∈ G.tuples) :
    u ∈ G.nodes ∧ v ∈ G.nodes := by
  obtain ⟨e, he, hq⟩ := List.mem_map.mp h
  have := wf.ends e he
  rcases ordered_eq_iff.mp hq with ⟨h1, h2⟩ | ⟨h1, h2⟩
  · rw [← h1, ← h2]; exact this
  · rw [← h1, ← h2]; exact this.symm

/-- `argmin` is the first position of the smallest entry. -/
theorem argmin_spec [LinearOrder D] (ds : List D) (hne : ds ≠ []) :
    ∃ i d, argmin ds = .ok i ∧ ds[i]? = some d ∧ (∀ d' ∈ ds, d ≤ d') ∧
      ∀ j d', j < i → ds[j]? = some d' → d < d' := by
  obtain ⟨d0, ds, rfl⟩ := List.exists_cons_of_ne_nil hne
  have key : ∀ ds : List D, ∃ b k, (ds.zipIdx 1).foldl
      (fun (best : D × Nat) p => if p.1 < best.1 then p else best) (d0, 0) = (b, k) ∧
      (d0 :: ds)[k]? = some b ∧ (∀ d' ∈ d0 :: ds, b ≤ d') ∧ ∀ j d', j < k → (d0 :: ds)[j]? = some d' → b < d' := by
    intro ds
    induction ds using List.reverseRecOn with
    | nil => exact ⟨d0, 0, rfl, rfl, by simp, fun j d' h => by omega⟩
    | append_singleton ds a ih =>
      obtain ⟨b, k, h1, h2, h3, h4⟩ := ih
      have hk := lt_of_get h2
      rw [List.zipIdx_append, List.foldl_append, h1]
      simp only [List.zipIdx_singleton, List.foldl_cons, List.foldl_nil]
      rw [← List.cons_append]
      by_cases hlt : a < b
      · rw [if_pos hlt]
        refine ⟨a, 1 + ds.length, rfl, ?_, ?_, ?_⟩
        · rw [List.getElem?_append_right (by rw [List.length_cons]; omega)]
          simp [Nat.add_comm]
        · intro d' hd'
          rcases List.mem_append.mp hd' with h | h
          · exact hlt.le.trans (h3 d' h)
          · rw [List.mem_singleton.mp h]
        · intro j d' hj hd'
          rw [List.getElem?_append_left (by rw [List.length_cons]; omega)] at hd'
          exact lt_of_lt_of_le hlt (h3 d' (List.mem_of_getElem? hd'))
      · rw [if_neg hlt]
        refine ⟨b, k, rfl, ?_, ?_, ?_⟩
        · rw [List.getElem?_append_left hk, h2]
        · intro d' hd'
          rcases List.mem_append.mp hd' with h | h
          · exact h3 d' h
          · rw [List.mem_singleton.mp h]
            exact not_lt.mp hlt
        · intro j d' hj hd'
          rw [List.getElem?_append_left (by omega)] at hd'
          exact h4 j d' hj hd'
  obtain ⟨b, k, h1, h2, h3, h4⟩ := key ds
  refine ⟨k, b, ?_, h2, h3, h4⟩
  unfold argmin
  simp only
  rw [h1]

theorem choose_mem {A : Type} {l : List A} {r : Nat} {a : A} (h : choose l r = .ok a) : a ∈ l :=
  List.mem_of_getElem? (getAt_eq_ok.mp h)

theorem choose_ok {A : Type} {l : List A} {r : Nat} (h : l ≠ []) : ∃ a, choose l r = .ok a := by
  have hl : r % l.length < l.length := Nat.mod_lt _ (List.length_pos_iff.mpr h)
  exact ⟨_, getAt_eq_ok.mpr (List.getElem?_eq_getElem hl)⟩

theorem nextVertex_done [LinearOrder D] {coin : Bool × Nat} {nv : List Nat} {ds : List D} {v : Nat}
    (hlen : ds.length = nv.length) (h : nextVertex coin nv ds = .ok v) :
    v ∈ nv ∧ (coin.1 = false → ∃ (i : Nat) (d : D), nv[i]? = some v ∧ ds[i]? = some d ∧ ∀ d' ∈ ds, d ≤ d') := by
  unfold nextVertex at h
  split at h
  · next hc => exact ⟨choose_mem h, fun hf => by rw [hf] at hc; cases hc⟩
  · obtain ⟨i, h1, h2⟩ := bind_eq_ok.mp h
    rw [getAt_eq_ok] at h2
    refine ⟨List.mem_of_getElem? h2, fun _ => ?_⟩
    have hne : ds ≠ [] := by
      rintro rfl
      cases h1
    obtain ⟨i', d, g1, g2, g3, -⟩ := argmin_spec ds hne
    rw [h1, ok_inj] at g1
    subst g1
    exact ⟨i, d, h2, g2, g3⟩

theorem nextVertex_ok [LinearOrder D] {coin : Bool × Nat} {nv : List Nat} {ds : List D}
    (hlen : ds.length = nv.length) (hne : nv ≠ []) : ∃ v, nextVertex coin nv ds = .ok v := by
  unfold nextVertex
  split
  · exact choose_ok hne
  · have hds : ds ≠ [] := by
      rintro rfl
      exact hne (List.length_eq_zero_iff.mp hlen.symm)
    obtain ⟨i, d, g1, g2, -⟩ := argmin_spec ds hds
    have hi := lt_of_get g2
    rw [g1, ok_bind]
    exact ⟨_, getAt_eq_ok.mpr (List.getElem?_eq_getElem (by omega))⟩

theorem setFlow_done {G : FlowGraph} (wf : G.Wf) {x x' : List Int} {u v : Nat} (h : setFlow G x u v = .ok x') :
    ∃ k, G.tuples[k]? = some (ordered u v) ∧ k < x.length ∧ x' = x.set k (if u < v then 1 else -1) := by
  unfold setFlow at h
  split at h
  · next huv =>
    obtain ⟨k, h1, h2⟩ := bind_eq_ok.mp h
    rw [wf.get] at h1
    by_cases hk : k < x.length
    · rw [modifyAt_const hk, ok_inj] at h2
      exact ⟨k, by rw [ordered_of_le huv.le, h1], hk, by rw [if_pos huv, h2]⟩
    · rw [modifyAt_range (by omega)] at h2
      cases h2
  · next huv =>
    obtain ⟨k, h1, h2⟩ := bind_eq_ok.mp h
    rw [wf.get] at h1
    by_cases hk : k < x.length
    · rw [modifyAt_const hk, ok_inj] at h2
      exact ⟨k, by rw [ordered_comm, ordered_of_le (by omega), h1], hk, by rw [if_neg huv, h2]⟩
    · rw [modifyAt_range (by omega)] at h2
      cases h2

theorem setFlow_ok {G : FlowGraph} (wf : G.Wf) {x : List Int} {u v : Nat} (hx : x.length = G.tuples.length)
    (h : ordered u v ∈ G.tuples) : ∃ x', setFlow G x u v = .ok x' := by
  obtain ⟨k, hk⟩ := List.getElem?_of_mem h
  have hl := lt_of_get hk
  unfold setFlow
  split
  · next huv =>
    rw [ordered_of_le huv.le] at hk
    rw [wf.get.mpr hk, ok_bind, modifyAt_const (by omega)]
    exact ⟨_, rfl⟩
  · next huv =>
    rw [ordered_comm, ordered_of_le (by omega)] at hk
    rw [wf.get.mpr hk, ok_bind, modifyAt_const (by omega)]
    exact ⟨_, rfl⟩

/-- What holds of the variables of the loop. -/
structure TripInv [LE D] (G : FlowGraph) (points : List P) (dist : P → P → D) (endPoint ckptPoint : P)
    (start ckptVertex : Nat) (coins : Nat → Bool × Nat) (s : Trip) : Prop where
  path : s.path = s.explored.reverse ++ [s.vertex]
  nodup : s.path.Nodup
  head : s.path.head? = some start
  ckpt : s.ckptReached = decide (ckptVertex ∈ s.explored)
  follows : ∀ m ∈ moves s.path, ordered m.1 m.2 ∈ G.tuples
  len : s.x.length = G.tuples.length
  flow : ∀ (e : Nat) q, G.tuples[e]? = some q → s.x[e]? = some (flowThrough s.path q)
  greedy : ∀ (k u v : Nat), s.path[k]? = some u → s.path[k + 1]? = some v → (coins k).1 = false →
    ∀ w, ordered u w ∈ G.tuples → w ∉ s.path.take (k + 1) → ∀ pv pw, points[v]? = some pv → points[w]? = some pw →
      dist pv (if ckptVertex ∈ s.path.take (k + 1) then endPoint else ckptPoint) ≤
        dist pw (if ckptVertex ∈ s.path.take (k + 1) then endPoint else ckptPoint)

section

variable [LinearOrder D] {G : FlowGraph} {points : List P} {dist : P → P → D} {endPoint ckptPoint : P}
  {start endVertex ckptVertex : Nat} {coins : Nat → Bool × Nat}

theorem tripStep_done (wf : G.Wf) {s s' : Trip}
    (inv : TripInv G points dist endPoint ckptPoint start ckptVertex coins s)
    (h : tripStep G points dist endPoint ckptPoint ckptVertex (coins s.explored.length) s = .ok (some s')) :
    TripInv G points dist endPoint ckptPoint start ckptVertex coins s' ∧ s'.explored = s.vertex :: s.explored ∧
      s'.path = s.path ++ [s'.vertex] := by
  unfold tripStep at h
  obtain ⟨around, h1, h⟩ := bind_eq_ok.mp h
  simp only at h
  split at h
  · cases h
  obtain ⟨npoints, h2, h⟩ := bind_eq_ok.mp h
  obtain ⟨v, h3, h⟩ := bind_eq_ok.mp h
  obtain ⟨x, h4, h⟩ := bind_eq_ok.mp h
  rw [pure_eq_ok, ok_inj, Option.some.injEq] at h
  have hsel := indexSelect_eq_ok_iff.mp h2
  have hlen : npoints.length = (around.filter fun w => !(s.vertex :: s.explored).contains w).length := by
    have := congrArg List.length hsel
    simpa using this.symm
  obtain ⟨hv, hg⟩ := nextVertex_done (by rw [List.length_map]; exact hlen) h3
  rw [List.mem_filter, FlowGraph.mem_neighbors h1] at hv
  obtain ⟨hv1, hv2⟩ := hv
  have hnew : v ∉ s.path := by
    rw [inv.path]
    simp only [List.contains_eq_mem, List.mem_cons, Bool.not_eq_true', decide_eq_false_iff_not, not_or] at hv2
    simp only [List.mem_append, List.mem_reverse, List.mem_singleton, not_or]
    exact ⟨hv2.2, hv2.1⟩
  have hvert : s.vertex ∈ s.path := by rw [inv.path]; simp
  have hne : s.vertex ≠ v := fun e => hnew (e ▸ hvert)
  obtain ⟨k, k1, k2, k3⟩ := setFlow_done wf h4
  have hmoves : moves (s.path ++ [v]) = moves s.path ++ [(s.vertex, v)] := by
    rw [inv.path]; exact moves_snoc _ _ _
  have hplen : s.path.length = s.explored.length + 1 := by rw [inv.path]; simp
  subst h
  refine ⟨?_, rfl, rfl⟩
  constructor
  · simp only [List.reverse_cons, ← inv.path]
  · simp only
    rw [List.nodup_append]
    refine ⟨inv.nodup, List.nodup_singleton _, ?_⟩
    intro a ha b hb hab
    rw [List.mem_singleton.mp hb] at hab
    exact hnew (hab ▸ ha)
  · simp only
    rw [List.head?_append, inv.head]
    rfl
  · simp only
    rw [inv.ckpt]
    by_cases c1 : ckptVertex ∈ s.explored <;> by_cases c2 : ckptVertex = s.vertex <;>
      simp [c1, c2, eq_comm]
  · simp only
    intro m hm
    rw [hmoves] at hm
    rcases List.mem_append.mp hm with hm | hm
    · exact inv.follows m hm
    · rw [List.mem_singleton.mp hm]
      exact hv1
  · simp only
    rw [k3, List.length_set, inv.len]
  · simp only
    intro e q he
    rw [k3]
    have hold : ∀ a b, (a = v ∨ b = v) → (a, b) ∉ moves s.path := by
      rintro a b hab hm
      obtain ⟨m1, m2⟩ := mem_of_moves hm
      rcases hab with rfl | rfl
      · exact hnew m1
      · exact hnew m2
    unfold flowThrough
    rw [hmoves]
    by_cases hek : e = k
    · subst hek
      rw [List.getElem?_set_self k2]
      rw [k1] at he
      obtain rfl := Option.some.inj he
      split
      · next huv =>
        rw [ordered_of_le huv.le, if_pos (by simp)]
      · next huv =>
        rw [ordered_comm, ordered_of_le (by omega), if_neg, if_pos (by simp)]
        rw [List.mem_append, not_or]
        refine ⟨hold _ _ (.inl rfl), ?_⟩
        rw [List.mem_singleton, Prod.mk.injEq]
        omega
    · rw [List.getElem?_set_ne (fun h => hek h.symm), inv.flow e q he]
      have hq : q ≠ ordered s.vertex v := by
        intro hq
        rw [hq] at he
        have l1 := lt_of_get he
        have l2 := lt_of_get k1
        rw [List.getElem?_eq_getElem l1, Option.some.injEq] at he
        rw [List.getElem?_eq_getElem l2, Option.some.injEq] at k1
        exact hek ((List.Nodup.getElem_inj_iff wf.nodup (hi := l1) (hj := l2)).mp (he.trans k1.symm))
      have hle := FlowGraph.tuples_le (List.mem_of_getElem? he)
      have n1 : q ≠ (s.vertex, v) := by
        rintro rfl
        exact hq (ordered_of_le hle).symm
      have n2 : q.swap ≠ (s.vertex, v) := by
        obtain ⟨a, b⟩ := q
        intro e
        simp only [Prod.swap_prod_mk, Prod.mk.injEq] at e
        obtain ⟨rfl, rfl⟩ := e
        exact hq (by rw [ordered_comm, ordered_of_le hle])
      unfold flowThrough
      simp only [List.mem_append, List.mem_singleton, n1, n2, or_false]
  · simp only
    intro j u w hu hw hc z hz hz' pw pz hpw hpz
    by_cases hj : j + 1 < s.path.length
    · have htake : (s.path ++ [v]).take (j + 1) = s.path.take (j + 1) :=
        List.take_append_of_le_length (by omega)
      rw [List.getElem?_append_left (by omega)] at hu hw
      rw [htake] at hz' ⊢
      exact inv.greedy j u w hu hw hc z hz hz' pw pz hpw hpz
    · have hjl : j = s.explored.length := by
        have := lt_of_get hw
        rw [List.length_append, List.length_singleton] at this
        omega
      subst hjl
      have htake : (s.path ++ [v]).take (s.explored.length + 1) = s.path := by
        rw [List.take_append_of_le_length (by omega), List.take_of_length_le (by omega)]
      rw [htake] at hz' ⊢
      have hu' : u = s.vertex := by
        rw [List.getElem?_append_left (by omega), inv.path, List.getElem?_append_right (by simp)] at hu
        simpa using hu.symm
      have hw' : w = v := by
        rw [List.getElem?_append_right (by omega)] at hw
        simpa [hplen] using hw.symm
      subst hu' hw'
      obtain ⟨i, d, g1, g2, g3⟩ := hg hc
      have hcr : (s.ckptReached || decide (s.vertex = ckptVertex)) = decide (ckptVertex ∈ s.path) := by
        rw [inv.ckpt, inv.path]
        by_cases c1 : ckptVertex ∈ s.explored <;> by_cases c2 : ckptVertex = s.vertex <;>
          simp [c1, c2, eq_comm]
      have hif : (if (s.ckptReached || decide (s.vertex = ckptVertex)) = true then endPoint else ckptPoint) =
          (if ckptVertex ∈ s.path then endPoint else ckptPoint) := by
        rw [hcr]
        simp only [decide_eq_true_eq]
      rw [hif] at g2 g3
      have hzn : z ∈ around.filter fun w => !(s.vertex :: s.explored).contains w := by
        rw [List.mem_filter, FlowGraph.mem_neighbors h1]
        refine ⟨hz, ?_⟩
        rw [inv.path] at hz'
        simp only [List.mem_append, List.mem_reverse, List.mem_singleton, not_or] at hz'
        simp only [List.contains_eq_mem, List.mem_cons, Bool.not_eq_true', decide_eq_false_iff_not, not_or]
        exact ⟨hz'.2, hz'.1⟩
      have at' : ∀ (i : Nat) (y : Nat) py, (around.filter fun w => !(s.vertex :: s.explored).contains w)[i]? = some y →
          points[y]? = some py → npoints[i]? = some py := by
        intro i y py hy hpy
        have := congrArg (fun l : List (Option P) => l[i]?) hsel
        simp only [List.getElem?_map] at this
        rw [hy] at this
        simp only [Option.map_some, hpy] at this
        cases hn : npoints[i]? with
        | none => rw [hn] at this; cases this
        | some y' =>
          rw [hn] at this
          simp only [Option.map_some, Option.some.injEq] at this
          rw [this]
      obtain ⟨iz, hiz⟩ := List.getElem?_of_mem hzn
      have e1 := at' i _ pw g1 hpw
      have e2 := at' iz z pz hiz hpz
      rw [List.getElem?_map, e1, Option.map_some, Option.some.injEq] at g2
      rw [g2]
      exact g3 _ (List.mem_map.mpr ⟨pz, List.mem_of_getElem? e2, rfl⟩)

theorem tripStep_ok (wf : G.Wf) {s : Trip} {coin : Bool × Nat} (hx : s.x.length = G.tuples.length)
    (hv : s.vertex ∈ G.nodes) (hn : ∀ v ∈ G.nodes, v < points.length) :
    ∃ o, tripStep G points dist endPoint ckptPoint ckptVertex coin s = .ok o := by
  have h1 : G.neighbors s.vertex = .ok (G.edges.filterMap fun e => if e.1 = s.vertex then some e.2
      else if e.2 = s.vertex then some e.1 else none) := by
    unfold FlowGraph.neighbors
    rw [if_pos (by simpa using hv)]
  generalize (G.edges.filterMap fun e => if e.1 = s.vertex then some e.2
      else if e.2 = s.vertex then some e.1 else none) = around at h1
  unfold tripStep
  rw [h1, ok_bind]
  simp only
  split
  · exact ⟨_, rfl⟩
  next hne =>
  obtain ⟨npoints, h2⟩ := indexSelect_total (x := points)
    (idx := around.filter fun w => !(s.vertex :: s.explored).contains w) (by
      intro i hi
      exact hn i (wf.mem_nodes ((FlowGraph.mem_neighbors h1).mp (List.mem_filter.mp hi).1)).2)
  have hsel := indexSelect_eq_ok_iff.mp h2
  have hlen : npoints.length = (around.filter fun w => !(s.vertex :: s.explored).contains w).length := by
    have := congrArg List.length hsel
    simpa using this.symm
  rw [h2, ok_bind]
  obtain ⟨v, h3⟩ := nextVertex_ok (coin := coin)
    (ds := npoints.map fun p => dist p (if (s.ckptReached || decide (s.vertex = ckptVertex)) = true then endPoint
      else ckptPoint)) (by rw [List.length_map]; exact hlen) hne
  rw [h3, ok_bind]
  have hv' := (nextVertex_done (by rw [List.length_map]; exact hlen) h3).1
  obtain ⟨x, h4⟩ := setFlow_ok wf hx ((FlowGraph.mem_neighbors h1).mp (List.mem_filter.mp hv').1)
  rw [h4, ok_bind]
  exact ⟨_, rfl⟩

theorem tripLoop_done (wf : G.Wf) {fuel : Nat} {s : Trip} {x : List Int} {path : List Nat}
    (inv : TripInv G points dist endPoint ckptPoint start ckptVertex coins s)
    (h : tripLoop G points dist endPoint ckptPoint endVertex ckptVertex coins fuel s.explored.length s =
      .ok (.done x path)) :
    ∃ s', TripInv G points dist endPoint ckptPoint start ckptVertex coins s' ∧ s'.vertex = endVertex ∧ s'.x = x ∧
      s'.path = path := by
  induction fuel generalizing s with
  | zero =>
    unfold tripLoop at h
    split at h
    · next he =>
      rw [ok_inj, Outcome.done.injEq] at h
      exact ⟨s, inv, he, h.1, h.2⟩
    · simp at h
  | succ fuel ih =>
    unfold tripLoop at h
    split at h
    · next he =>
      rw [ok_inj, Outcome.done.injEq] at h
      exact ⟨s, inv, he, h.1, h.2⟩
    · obtain ⟨o, h1, h⟩ := bind_eq_ok.mp h
      cases o with
      | none => simp [pure_eq_ok] at h
      | some s' =>
        obtain ⟨inv', he, -⟩ := tripStep_done wf inv h1
        refine ih inv' ?_
        rw [he, List.length_cons]
        exact h

theorem path_in_nodes (wf : G.Wf) {s : Trip}
    (inv : TripInv G points dist endPoint ckptPoint start ckptVertex coins s) (hs : start ∈ G.nodes) :
    ∀ v ∈ s.path, v ∈ G.nodes := by
  intro v hv
  rcases head_or_moved hv with h | ⟨u, h⟩
  · rw [inv.head] at h
    rw [← Option.some.inj h]
    exact hs
  · exact (wf.mem_nodes (inv.follows _ h)).2

theorem tripLoop_ok (wf : G.Wf) (hs : start ∈ G.nodes) (hn : ∀ v ∈ G.nodes, v < points.length) {fuel : Nat} {s : Trip}
    (inv : TripInv G points dist endPoint ckptPoint start ckptVertex coins s)
    (hf : G.nodes.length + 1 ≤ fuel + s.path.length) :
    ∃ o, tripLoop G points dist endPoint ckptPoint endVertex ckptVertex coins fuel s.explored.length s = .ok o ∧
      o ≠ .running := by
  induction fuel generalizing s with
  | zero =>
    have hsub := path_in_nodes wf inv hs
    have := (inv.nodup.subperm hsub).length_le
    omega
  | succ fuel ih =>
    unfold tripLoop
    split
    · exact ⟨_, rfl, by simp⟩
    · have hv : s.vertex ∈ G.nodes := path_in_nodes wf inv hs _ (by rw [inv.path]; simp)
      obtain ⟨o, h1⟩ := tripStep_ok (dist := dist) (endPoint := endPoint) (ckptPoint := ckptPoint)
        (ckptVertex := ckptVertex) (coin := coins s.explored.length) wf inv.len hv hn
      simp only
      rw [h1, ok_bind]
      cases o with
      | none => exact ⟨_, rfl, by simp⟩
      | some s' =>
        obtain ⟨inv', he, hp⟩ := tripStep_done wf inv h1
        obtain ⟨o, ho, hr⟩ := ih inv' (by rw [hp, List.length_append, List.length_singleton]; omega)
        rw [he, List.length_cons] at ho
        exact ⟨o, ho, hr⟩

theorem tripInv_start (wf : G.Wf) : TripInv G points dist endPoint ckptPoint start ckptVertex coins
    { vertex := start, path := [start], explored := [], ckptReached := false,
      x := List.replicate G.tupleToEdge.length 0 } := by
  constructor
  · rfl
  · simp
  · rfl
  · rfl
  · simp [moves]
  · simp [wf.t2e]
  · intro e q he
    have := lt_of_get he
    simp only [flowThrough, moves, wf.t2e]
    simp [this]
  · intro k u v hu hv
    simp at hv

end

end Verif
