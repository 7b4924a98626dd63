import Verif.Model.Ocean
import Verif.Lemmas.Trajectory
import Verif.Lemmas.Boundary

/-!
# Lemmas about the ocean dataset
-/

namespace Verif

/-- The dictionary numbers the edges, which have their smaller end first. -/
structure Numbers (E : List (Nat × Nat)) (d : Dict (Nat × Nat) Nat) : Prop where
  nodup : E.Nodup
  le : ∀ q ∈ E, q.1 ≤ q.2
  get : ∀ (q : Nat × Nat) (e : Nat), Dict.get d q = .ok e ↔ E[e]? = some q

theorem Numbers.inj {E : List (Nat × Nat)} {d : Dict (Nat × Nat) Nat} (h : Numbers E d) {e e' : Nat} {q : Nat × Nat}
    (h1 : E[e]? = some q) (h2 : E[e']? = some q) : e = e' := by
  have l1 := lt_of_get h1
  have l2 := lt_of_get h2
  rw [List.getElem?_eq_getElem l1, Option.some.injEq] at h1
  rw [List.getElem?_eq_getElem l2, Option.some.injEq] at h2
  exact (List.Nodup.getElem_inj_iff h.nodup (hi := l1) (hj := l2)).mp (h1.trans h2.symm)

theorem get_zipIdx_iff {E : List (Nat × Nat)} (hnd : E.Nodup) {q : Nat × Nat} {e : Nat} :
    Dict.get E.zipIdx q = .ok e ↔ E[e]? = some q := by
  rw [Dict.get_eq_ok, Dict.get?_zipIdx]
  constructor
  · intro he
    split at he
    · next hm =>
      rw [Nat.add_zero, Option.some.injEq] at he
      exact (idxOf_iff hnd hm).mp he
    · cases he
  · intro he
    have hm := List.mem_of_getElem? he
    rw [if_pos hm, Nat.add_zero, Option.some.injEq]
    exact (idxOf_iff hnd hm).mpr he

theorem edgeNumbers_eq {E : List (Nat × Nat)} (hnd : E.Nodup) : edgeNumbers E = E.zipIdx := by
  unfold edgeNumbers
  induction E using List.reverseRecOn with
  | nil => rfl
  | append_singleton E q ih =>
    rw [List.nodup_append] at hnd
    rw [List.zipIdx_append, List.foldl_append, ih hnd.1, ← List.zipIdx_append]
    simp only [List.zipIdx_singleton, Nat.zero_add, List.foldl_cons, List.foldl_nil]
    exact Dict.set_zipIdx (fun hm => hnd.2.2 q hm q (by simp) rfl)

theorem numbers_edgeNumbers {E : List (Nat × Nat)} (hnd : E.Nodup) (hle : ∀ q ∈ E, q.1 ≤ q.2) :
    Numbers E (edgeNumbers E) :=
  ⟨hnd, hle, fun q e => by rw [edgeNumbers_eq hnd]; exact get_zipIdx_iff hnd⟩

theorem FlowGraph.Wf.numbers {G : FlowGraph} (wf : G.Wf) : Numbers G.tuples G.tupleToEdge :=
  ⟨wf.nodup, fun _ h => FlowGraph.tuples_le h, fun _ _ => wf.get⟩

/-! ### The arrays -/

theorem firsts_snoc {A : Type} [DecidableEq A] (l : List A) (a : A) :
    firsts (l ++ [a]) = if a ∈ firsts l then firsts l else firsts l ++ [a] := by
  unfold firsts
  rw [List.foldl_append]
  rfl

theorem mem_firsts {A : Type} [DecidableEq A] {l : List A} {a : A} : a ∈ firsts l ↔ a ∈ l := by
  induction l using List.reverseRecOn with
  | nil => rfl
  | append_singleton l b ih =>
    rw [firsts_snoc]
    split
    · next h =>
      rw [ih, List.mem_append, List.mem_singleton]
      constructor
      · exact .inl
      · rintro (h' | rfl)
        · exact h'
        · by_contra hno
          have : a ∈ firsts l := h
          rw [ih] at this
          exact hno this
    · rw [List.mem_append, List.mem_append, ih]

theorem nodup_firsts {A : Type} [DecidableEq A] (l : List A) : (firsts l).Nodup := by
  induction l using List.reverseRecOn with
  | nil => exact List.nodup_nil
  | append_singleton l b ih =>
    rw [firsts_snoc]
    split
    · exact ih
    · next h =>
      rw [List.nodup_append]
      refine ⟨ih, List.nodup_singleton _, ?_⟩
      intro a ha c hc
      rw [List.mem_singleton.mp hc]
      rintro rfl
      exact h ha

/-- The array of nodes. -/
theorem oceanNodes_spec (edgeList : List (Nat × Nat)) :
    (oceanArrays edgeList).1.Nodup ∧ (∀ v, v ∈ (oceanArrays edgeList).1 ↔ ∃ e ∈ edgeList, v = e.1 ∨ v = e.2) := by
  have hp := List.perm_insertionSort (· ≤ ·) (oceanNodes edgeList)
  refine ⟨hp.nodup_iff.mpr (nodup_firsts _), fun v => ?_⟩
  show v ∈ (oceanNodes edgeList).insertionSort (· ≤ ·) ↔ _
  rw [hp.mem_iff, oceanNodes, mem_firsts, List.mem_flatMap]
  simp

/-- The array of edges. -/
theorem oceanEdges_spec (edgeList : List (Nat × Nat)) :
    (oceanArrays edgeList).2.Nodup ∧
      (∀ q, q ∈ (oceanArrays edgeList).2 ↔ ∃ e ∈ edgeList, q = ordered e.1 e.2) := by
  have hp := List.perm_insertionSort (fun p q => pairLe p q = true) (oceanEdges edgeList)
  have hback : (oceanEdges edgeList).map (fun e => ordered e.1 e.2) =
      firsts (edgeList.map fun e => ordered e.1 e.2) := by
    unfold oceanEdges
    rw [List.map_map]
    conv_rhs => rw [← List.map_id (firsts (edgeList.map fun e => ordered e.1 e.2))]
    apply List.map_congr_left
    intro q hq
    rw [mem_firsts] at hq
    obtain ⟨e, -, rfl⟩ := List.mem_map.mp hq
    simp only [Function.comp, id]
    have hle : (ordered e.1 e.2).1 ≤ (ordered e.1 e.2).2 := by unfold ordered; simp only; omega
    split
    · exact ordered_of_le hle
    · simp only [Prod.fst_swap, Prod.snd_swap]
      rw [ordered_comm]
      exact ordered_of_le hle
  have hp' : (oceanArrays edgeList).2.Perm (firsts (edgeList.map fun e => ordered e.1 e.2)) := by
    rw [← hback]
    exact hp.map _
  refine ⟨hp'.nodup_iff.mpr (nodup_firsts _), fun q => ?_⟩
  rw [hp'.mem_iff, mem_firsts, List.mem_map]
  simp [eq_comm]

theorem oceanNumbers (edgeList : List (Nat × Nat)) :
    Numbers (oceanArrays edgeList).2 (edgeNumbers (oceanArrays edgeList).2) := by
  obtain ⟨h1, h2⟩ := oceanEdges_spec edgeList
  refine numbers_edgeNumbers h1 fun q hq => ?_
  obtain ⟨e, -, rfl⟩ := (h2 q).mp hq
  unfold ordered
  simp only
  omega

/-! ### Flows -/

theorem moves_ne_of_cons {P : Nat × Nat → Prop} {a b : Nat} {l : List Nat} (h : ∀ m ∈ moves (a :: b :: l), P m) :
    P (a, b) ∧ ∀ m ∈ moves (b :: l), P m := by
  rw [moves_cons] at h
  exact ⟨h _ List.mem_cons_self, fun m hm => h m (List.mem_cons_of_mem _ hm)⟩

/-- What one step does. -/
theorem addFlow_done {E : List (Nat × Nat)} {d : Dict (Nat × Nat) Nat} (hd : Numbers E d) {f f' : List Int}
    {u v : Nat} (h : addFlow d f (u, v) = .ok f') :
    ∃ (k : Nat) (w : Int), E[k]? = some (ordered u v) ∧ f[k]? = some w ∧ f' = f.set k (w + if u < v then 1 else -1) := by
  unfold addFlow at h
  simp only at h
  have hmod : ∀ (k : Nat) (g : Int → Int), modifyAt f k g = .ok f' → ∃ w, f[k]? = some w ∧ f' = f.set k (g w) := by
    intro k g hm
    unfold modifyAt at hm
    cases hf : f[k]? with
    | none => rw [hf] at hm; cases hm
    | some w =>
      rw [hf] at hm
      simp only [ok_inj] at hm
      exact ⟨w, rfl, hm.symm⟩
  split at h
  · next huv =>
    obtain ⟨k, h1, h2⟩ := bind_eq_ok.mp h
    obtain ⟨w, h3, h4⟩ := hmod k _ h2
    exact ⟨k, w, by rw [ordered_of_le huv.le]; exact (hd.get _ _).mp h1, h3, by rw [if_pos huv]; exact h4⟩
  · next huv =>
    obtain ⟨k, h1, h2⟩ := bind_eq_ok.mp h
    obtain ⟨w, h3, h4⟩ := hmod k _ h2
    exact ⟨k, w, by rw [ordered_comm, ordered_of_le (by omega)]; exact (hd.get _ _).mp h1, h3,
      by rw [if_neg huv]; exact h4⟩

theorem addFlow_ok {E : List (Nat × Nat)} {d : Dict (Nat × Nat) Nat} (hd : Numbers E d) {f : List Int} {u v : Nat}
    (hf : f.length = E.length) (h : ordered u v ∈ E) : ∃ f', addFlow d f (u, v) = .ok f' := by
  obtain ⟨k, hk⟩ := List.getElem?_of_mem h
  have hl := lt_of_get hk
  have hmod : ∀ g : Int → Int, ∃ f', modifyAt f k g = .ok f' := by
    intro g
    unfold modifyAt
    rw [List.getElem?_eq_getElem (by omega : k < f.length)]
    exact ⟨_, rfl⟩
  unfold addFlow
  simp only
  split
  · next huv =>
    rw [ordered_of_le huv.le] at hk
    rw [(hd.get _ _).mpr hk, ok_bind]
    exact hmod _
  · next huv =>
    rw [ordered_comm, ordered_of_le (by omega)] at hk
    rw [(hd.get _ _).mpr hk, ok_bind]
    exact hmod _

theorem addFlow_missing {E : List (Nat × Nat)} {d : Dict (Nat × Nat) Nat} (hd : Numbers E d) {f : List Int} {u v : Nat}
    (h : ordered u v ∉ E) : addFlow d f (u, v) = .error .key := by
  have hget : ∀ q, q ∉ E → Dict.get d q = .error .key := by
    intro q hq
    cases hg : Dict.get d q with
    | ok e => exact absurd (List.mem_of_getElem? ((hd.get _ _).mp hg)) hq
    | error e =>
      unfold Dict.get at hg
      split at hg
      · cases hg
      · exact hg.symm
  unfold addFlow
  simp only
  split
  · next huv =>
    rw [ordered_of_le huv.le] at h
    rw [hget _ h]
    rfl
  · next huv =>
    rw [ordered_comm, ordered_of_le (by omega)] at h
    rw [hget _ h]
    rfl

/-- The flow of steps. -/
theorem addFlows_done {E : List (Nat × Nat)} {d : Dict (Nat × Nat) Nat} (hd : Numbers E d)
    {ms : List (Nat × Nat)} (hne : ∀ m ∈ ms, m.1 ≠ m.2) {f : List Int}
    (h : foldE (addFlow d) (List.replicate E.length 0) ms = .ok f) :
    (∀ m ∈ ms, ordered m.1 m.2 ∈ E) ∧ f.length = E.length ∧
      ∀ (e a b : Nat), E[e]? = some (a, b) → f[e]? = some ((ms.count (a, b) : Int) - ms.count (b, a)) := by
  have := foldE_done (fun pre (f : List Int) => (∀ m ∈ pre, ordered m.1 m.2 ∈ E) ∧ f.length = E.length ∧
      ∀ (e a b : Nat), E[e]? = some (a, b) → f[e]? = some ((pre.count (a, b) : Int) - pre.count (b, a))) h
    ⟨by simp, by simp, fun e a b he => by simp [lt_of_get he]⟩ (by
      rintro pre ⟨u, v⟩ post f f' rfl ⟨i1, i2, i3⟩ hs
      have huv : u ≠ v := hne (u, v) (by simp)
      obtain ⟨k, w, k1, k2, rfl⟩ := addFlow_done hd hs
      refine ⟨?_, by rw [List.length_set, i2], ?_⟩
      · intro m hm
        rcases List.mem_append.mp hm with hm | hm
        · exact i1 m hm
        · rw [List.mem_singleton.mp hm]
          exact List.mem_of_getElem? k1
      · intro e a b he
        have hle := hd.le _ (List.mem_of_getElem? he)
        simp only at hle
        rw [List.count_append, List.count_append, List.count_singleton, List.count_singleton]
        by_cases hek : e = k
        · subst hek
          rw [k1, Option.some.injEq] at he
          rw [List.getElem?_set_self (lt_of_get k2)]
          have hab : a = min u v ∧ b = max u v := by
            unfold ordered at he
            rw [Prod.mk.injEq] at he
            exact ⟨he.1.symm, he.2.symm⟩
          have hw := i3 e a b (by rw [k1, he])
          rw [k2, Option.some.injEq] at hw
          rw [hw, Option.some.injEq]
          by_cases hlt : u < v
          · have ha : a = u := by omega
            have hb : b = v := by omega
            subst ha hb
            have e1 : ((a, b) == (a, b)) = true := by simp
            have e2 : ((a, b) == (b, a)) = false := by simp; omega
            rw [if_pos hlt, e1, e2]
            simp only [if_true, Bool.false_eq_true, if_false]
            push_cast
            omega
          · have ha : a = v := by omega
            have hb : b = u := by omega
            subst ha hb
            have e1 : ((b, a) == (b, a)) = true := by simp
            have e2 : ((b, a) == (a, b)) = false := by simp; omega
            rw [if_neg hlt, e1, e2]
            simp only [if_true, Bool.false_eq_true, if_false]
            push_cast
            omega
        · have hne1 : ((u, v) == (a, b)) = false := by
            rw [beq_eq_false_iff_ne, Ne, Prod.mk.injEq]
            rintro ⟨rfl, rfl⟩
            rw [ordered_of_le hle] at k1
            exact hek (hd.inj he k1)
          have hne2 : ((u, v) == (b, a)) = false := by
            rw [beq_eq_false_iff_ne, Ne, Prod.mk.injEq]
            rintro ⟨rfl, rfl⟩
            rw [ordered_comm, ordered_of_le hle] at k1
            exact hek (hd.inj he k1)
          rw [List.getElem?_set_ne (fun h => hek h.symm), i3 e a b he, hne1, hne2]
          simp)
  exact this

theorem addFlows_ok {E : List (Nat × Nat)} {d : Dict (Nat × Nat) Nat} (hd : Numbers E d)
    {ms : List (Nat × Nat)} (hE : ∀ m ∈ ms, ordered m.1 m.2 ∈ E) {f : List Int} (hf : f.length = E.length) :
    ∃ f', foldE (addFlow d) f ms = .ok f' ∧ f'.length = E.length := by
  induction ms generalizing f with
  | nil => exact ⟨f, rfl, hf⟩
  | cons m ms ih =>
    obtain ⟨u, v⟩ := m
    obtain ⟨f1, h1⟩ := addFlow_ok hd hf (hE (u, v) (by simp))
    obtain ⟨k, w, -, -, hf1⟩ := addFlow_done hd h1
    obtain ⟨f2, h2, h3⟩ := ih (fun m hm => hE m (by simp [hm])) (f := f1) (by rw [hf1, List.length_set, hf])
    exact ⟨f2, by simp only [foldE, h1, ok_bind, h2], h3⟩

theorem addFlows_missing {E : List (Nat × Nat)} {d : Dict (Nat × Nat) Nat} (hd : Numbers E d)
    {ms : List (Nat × Nat)} (hE : ∃ m ∈ ms, ordered m.1 m.2 ∉ E) {f : List Int} (hf : f.length = E.length) :
    foldE (addFlow d) f ms = .error .key := by
  induction ms generalizing f with
  | nil => obtain ⟨m, hm, -⟩ := hE; cases hm
  | cons m ms ih =>
    obtain ⟨u, v⟩ := m
    by_cases h : ordered u v ∈ E
    · obtain ⟨f1, h1⟩ := addFlow_ok hd hf h
      obtain ⟨k, w, -, -, hf1⟩ := addFlow_done hd h1
      simp only [foldE, h1, ok_bind]
      refine ih ?_ (by rw [hf1, List.length_set, hf])
      obtain ⟨m', hm', hn⟩ := hE
      rcases List.mem_cons.mp hm' with rfl | hm'
      · exact absurd h hn
      · exact ⟨m', hm', hn⟩
    · simp only [foldE, addFlow_missing hd h, error_bind]

/-! ### Divergences -/

theorem divergence_set {B : Mat} {f : List Int} {k : Nat} {w c : Int} {v : Nat} (hk : f[k]? = some w) (hB : k < B.cols) :
    divergence B (f.set k (w + c)) v = divergence B f v + B.entry v k * c := by
  unfold divergence
  have hlt := lt_of_get hk
  have : ((List.range B.cols).map fun e => B.entry v e * ((f.set k (w + c))[e]?).getD 0) =
      (List.range B.cols).map fun e => B.entry v e * (f[e]?).getD 0 + if e = k then B.entry v k * c else 0 := by
    apply List.map_congr_left
    intro e _
    by_cases h : e = k
    · subst h
      rw [List.getElem?_set_self hlt, hk, if_pos rfl]
      simp only [Option.getD_some]
      ring
    · rw [List.getElem?_set_ne (fun e' => h e'.symm), if_neg h]
      ring
  rw [this, List.sum_map_add, sum_range_single, if_pos hB]

theorem divergence_zeros (B : Mat) (m v : Nat) : divergence B (List.replicate m 0) v = 0 := by
  unfold divergence
  apply List.sum_eq_zero
  intro x hx
  obtain ⟨e, -, rfl⟩ := List.mem_map.mp hx
  rw [List.getElem?_replicate]
  split <;> simp

/-- The rows of a node-edge matrix: row `v` is that of the node `name v`. -/
structure NodeEdges (E : List (Nat × Nat)) (B : Mat) (name : Nat → Nat) : Prop where
  cols : B.cols = E.length
  entry : ∀ (v e : Nat) (q : Nat × Nat), v < B.rows → q.1 < q.2 → E[e]? = some q → B.entry v e = nodeEdge (name v) q

theorem addFlows_divergence {E : List (Nat × Nat)} {d : Dict (Nat × Nat) Nat} (hd : Numbers E d) {B : Mat}
    {name : Nat → Nat} (hB : NodeEdges E B name) {ms : List (Nat × Nat)} (hne : ∀ m ∈ ms, m.1 ≠ m.2) {f : List Int}
    (h : foldE (addFlow d) (List.replicate E.length 0) ms = .ok f) (v : Nat) (hv : v < B.rows) :
    divergence B f v = (ms.map fun m => indicator (name v = m.2) - indicator (name v = m.1)).sum := by
  refine foldE_done (fun pre (f : List Int) => divergence B f v =
    (pre.map fun m => indicator (name v = m.2) - indicator (name v = m.1)).sum) h (divergence_zeros _ _ _) ?_
  rintro pre ⟨a, b⟩ post f f' rfl ih hs
  have hab : a ≠ b := hne (a, b) (by simp)
  obtain ⟨k, w, k1, k2, rfl⟩ := addFlow_done hd hs
  have hk := lt_of_get k1
  rw [divergence_set k2 (by rw [hB.cols]; exact hk), ih, List.map_append, List.sum_append]
  congr 1
  have hq : (ordered a b).1 < (ordered a b).2 := by unfold ordered; simp only; omega
  rw [hB.entry v k _ hv hq k1]
  have := nodeEdge_step (w := name v) hab
  unfold stepSign at this
  rw [this]
  simp [indicator]

theorem sum_moves (w : Nat) (path : List Nat) :
    ((moves path).map fun m => indicator (w = m.2) - indicator (w = m.1)).sum =
      indicator (path.getLast? = some w) - indicator (path.head? = some w) := by
  induction path with
  | nil => rfl
  | cons a l ih =>
    cases l with
    | nil => simp [moves, indicator]
    | cons b l =>
      rw [moves_cons, List.map_cons, List.sum_cons, ih, List.getLast?_cons_cons]
      simp only [List.head?_cons, Option.some.injEq]
      have e1 : indicator (w = a) = indicator (a = w) := by unfold indicator; simp only [eq_comm]
      have e2 : indicator (w = b) = indicator (b = w) := by unfold indicator; simp only [eq_comm]
      rw [e1, e2]
      ring

/-! ### Incidence matrices -/

/-- What a successful run of the incidence matrix builds. -/
theorem incidence_done {V : List Nat} {E : List (Nat × Nat)} {B : Mat} (h : incidenceMatrix V E = .ok B) :
    B.rows = V.length ∧ B.cols = E.length ∧ (∀ q ∈ E, q.1 ≠ q.2 → q.1 ∈ V ∧ q.2 ∈ V) ∧
      ∀ (v e : Nat) (q : Nat × Nat), E[e]? = some q → B.entry v e =
        if q.1 = q.2 then 0 else if v = V.idxOf q.2 then 1 else if v = V.idxOf q.1 then -1 else 0 := by
  have key := foldE_done (fun pre (B : Mat) => B.rows = V.length ∧ B.cols = E.length ∧
      (∀ p ∈ pre, p.1.1 ≠ p.1.2 → p.1.1 ∈ V ∧ p.1.2 ∈ V) ∧
      (∀ (v e : Nat) (q : Nat × Nat), E[e]? = some q → B.entry v e = if (q, e) ∈ pre then
        (if q.1 = q.2 then 0 else if v = V.idxOf q.2 then 1 else if v = V.idxOf q.1 then -1 else 0) else 0)) h
    ⟨rfl, rfl, by simp, by simp [Mat.zeros]⟩ (by
      rintro pre ⟨⟨a, b⟩, i⟩ post B B' hl ⟨i1, i2, i3, i4⟩ hs
      have hget : E[i]? = some (a, b) := List.mem_zipIdx_iff_getElem? (x := ((a, b), i)).mp (by rw [hl]; simp)
      have hpre : ∀ (q : Nat × Nat), (q, i) ∉ pre := by
        intro q hq
        have hnd : (E.zipIdx.map Prod.snd).Nodup := by rw [List.zipIdx_map_snd]; exact List.nodup_range'
        rw [hl, List.map_append, List.map_cons, List.nodup_append] at hnd
        exact hnd.2.2 i (List.mem_map.mpr ⟨(q, i), hq, rfl⟩) i (by simp) rfl
      unfold incidenceColumn at hs
      simp only at hs
      split at hs
      · next hab =>
        rw [ok_inj] at hs
        subst hs
        refine ⟨i1, i2, ?_, ?_⟩
        · intro p hp hne
          rcases List.mem_append.mp hp with hp | hp
          · exact i3 p hp hne
          · rw [List.mem_singleton.mp hp] at hne
            exact absurd hab hne
        · intro v e q he
          rw [i4 v e q he]
          by_cases hei : e = i
          · subst hei
            rw [hget, Option.some.injEq] at he
            subst he
            rw [if_neg (hpre _), if_pos (by simp), if_pos hab]
          · have : ((q, e) ∈ pre ++ [((a, b), i)]) ↔ (q, e) ∈ pre := by
              simp only [List.mem_append, List.mem_singleton, Prod.mk.injEq]
              tauto
            simp only [this]
      · next hab =>
        split at hs
        · next hV =>
          simp only [List.contains_eq_mem, Bool.and_eq_true, decide_eq_true_eq] at hV
          obtain ⟨B1, s1, s2⟩ := bind_eq_ok.mp hs
          obtain ⟨-, rfl⟩ := Mat.set_eq_ok.mp s1
          obtain ⟨-, rfl⟩ := Mat.set_eq_ok.mp s2
          refine ⟨i1, i2, ?_, ?_⟩
          · intro p hp hne
            rcases List.mem_append.mp hp with hp | hp
            · exact i3 p hp hne
            · rw [List.mem_singleton.mp hp]
              exact hV
          · intro v e q he
            simp only
            by_cases hei : e = i
            · subst hei
              rw [hget, Option.some.injEq] at he
              subst he
              rw [if_pos (by simp : ((a, b), e) ∈ pre ++ [((a, b), e)]), if_neg hab, i4 v e (a, b) hget,
                if_neg (hpre _)]
              simp
            · have : ((q, e) ∈ pre ++ [((a, b), i)]) ↔ (q, e) ∈ pre := by
                simp only [List.mem_append, List.mem_singleton, Prod.mk.injEq]
                tauto
              rw [if_neg (fun h => hei h.2), if_neg (fun h => hei h.2), i4 v e q he]
              simp only [this]
        · cases hs)
  obtain ⟨k1, k2, k3, k4⟩ := key
  refine ⟨k1, k2, ?_, ?_⟩
  · intro q hq
    obtain ⟨i, hi⟩ := List.getElem?_of_mem hq
    exact k3 (q, i) (List.mem_zipIdx_iff_getElem?.mpr hi)
  · intro v e q he
    rw [k4 v e q he, if_pos (List.mem_zipIdx_iff_getElem?.mpr he)]

theorem incidence_ok {V : List Nat} {E : List (Nat × Nat)} (h : ∀ q ∈ E, q.1 ∈ V ∧ q.2 ∈ V) :
    ∃ B, incidenceMatrix V E = .ok B := by
  obtain ⟨B, h1, -⟩ := foldE_inv (f := incidenceColumn V) (l := E.zipIdx) (s := Mat.zeros V.length E.length)
    (fun _ B => B.rows = V.length ∧ B.cols = E.length) ⟨rfl, rfl⟩ (by
      rintro pre ⟨⟨a, b⟩, i⟩ post B hl ⟨i1, i2⟩
      have hget : E[i]? = some (a, b) := List.mem_zipIdx_iff_getElem? (x := ((a, b), i)).mp (by rw [hl]; simp)
      have hV := h (a, b) (List.mem_of_getElem? hget)
      have hi := lt_of_get hget
      unfold incidenceColumn
      simp only
      split
      · exact ⟨B, rfl, i1, i2⟩
      · rw [if_pos (by simpa using hV)]
        have la : V.idxOf a < V.length := List.idxOf_lt_length_iff.mpr hV.1
        have lb : V.idxOf b < V.length := List.idxOf_lt_length_iff.mpr hV.2
        unfold Mat.set
        rw [if_pos ⟨by omega, by omega⟩, ok_bind]
        simp only
        rw [if_pos ⟨by omega, by omega⟩]
        exact ⟨_, rfl, i1, i2⟩)
  exact ⟨B, h1⟩

/-- The incidence matrix is a node-edge matrix. -/
theorem incidence_nodeEdges {V : List Nat} {E : List (Nat × Nat)} {B : Mat} (hV : V.Nodup)
    (h : incidenceMatrix V E = .ok B) : NodeEdges E B fun v => V[v]?.getD 0 := by
  obtain ⟨h1, h2, h3, h4⟩ := incidence_done h
  refine ⟨h2, ?_⟩
  intro v e q hv hq he
  obtain ⟨m1, m2⟩ := h3 q (List.mem_of_getElem? he) hq.ne
  rw [h4 v e q he, if_neg hq.ne]
  rw [h1] at hv
  have hidx : ∀ u ∈ V, v = V.idxOf u ↔ V[v]?.getD 0 = u := by
    intro u hu
    rw [List.getElem?_eq_getElem hv, Option.getD_some]
    constructor
    · rintro rfl
      exact List.getElem_idxOf hv
    · rintro rfl
      exact (hV.idxOf_getElem v hv).symm
  unfold nodeEdge
  simp only [hidx _ m1, hidx _ m2]

/-- The columns of the faces. -/
theorem faces_done {E : List (Nat × Nat)} {d : Dict (Nat × Nat) Nat} (hd : Numbers E d)
    (hlt : ∀ q ∈ E, q.1 < q.2) {faces : List Tri} {B : Mat}
    (h : foldE (faceColumn d) (Mat.zeros E.length faces.length) faces.zipIdx = .ok B) :
    B.rows = E.length ∧ B.cols = faces.length ∧
      ∀ (i : Nat) (t : Tri), faces[i]? = some t → ∃ e1 e2 e3 : Nat, E[e1]? = some (t.1, t.2.1) ∧ E[e2]? = some (t.2.1, t.2.2) ∧
        E[e3]? = some (t.1, t.2.2) ∧ B.entry e1 i = 1 ∧ B.entry e2 i = 1 ∧ B.entry e3 i = -1 ∧
        ∀ e, e ≠ e1 → e ≠ e2 → e ≠ e3 → B.entry e i = 0 := by
  have key := foldE_done (fun pre (B : Mat) => B.rows = E.length ∧ B.cols = faces.length ∧
      (∀ i, i ∉ pre.map Prod.snd → ∀ e, B.entry e i = 0) ∧
      ∀ (i : Nat) (t : Tri), (t, i) ∈ pre → ∃ e1 e2 e3 : Nat, E[e1]? = some (t.1, t.2.1) ∧ E[e2]? = some (t.2.1, t.2.2) ∧
        E[e3]? = some (t.1, t.2.2) ∧ B.entry e1 i = 1 ∧ B.entry e2 i = 1 ∧ B.entry e3 i = -1 ∧
        ∀ e, e ≠ e1 → e ≠ e2 → e ≠ e3 → B.entry e i = 0) h
    ⟨rfl, rfl, fun _ _ _ => rfl, by simp⟩ (by
      rintro pre ⟨t, i⟩ post B B' hl ⟨i1, i2, i3, i4⟩ hs
      have hpre : i ∉ pre.map Prod.snd := by
        intro hq
        have hnd : (faces.zipIdx.map Prod.snd).Nodup := by rw [List.zipIdx_map_snd]; exact List.nodup_range'
        rw [hl, List.map_append, List.map_cons, List.nodup_append] at hnd
        exact hnd.2.2 i hq i (by simp) rfl
      unfold faceColumn at hs
      simp only at hs
      obtain ⟨e1, g1, hs⟩ := bind_eq_ok.mp hs
      obtain ⟨e2, g2, hs⟩ := bind_eq_ok.mp hs
      obtain ⟨e3, g3, hs⟩ := bind_eq_ok.mp hs
      obtain ⟨B1, s1, hs⟩ := bind_eq_ok.mp hs
      obtain ⟨B2, s2, s3⟩ := bind_eq_ok.mp hs
      rw [hd.get] at g1 g2 g3
      obtain ⟨-, rfl⟩ := Mat.set_eq_ok.mp s1
      obtain ⟨-, rfl⟩ := Mat.set_eq_ok.mp s2
      obtain ⟨-, rfl⟩ := Mat.set_eq_ok.mp s3
      have l1 := hlt _ (List.mem_of_getElem? g1)
      have l2 := hlt _ (List.mem_of_getElem? g2)
      simp only at l1 l2
      have d12 : e1 ≠ e2 := by
        rintro rfl
        rw [g1, Option.some.injEq, Prod.mk.injEq] at g2
        omega
      have d13 : e1 ≠ e3 := by
        rintro rfl
        rw [g1, Option.some.injEq, Prod.mk.injEq] at g3
        omega
      have d23 : e2 ≠ e3 := by
        rintro rfl
        rw [g2, Option.some.injEq, Prod.mk.injEq] at g3
        omega
      refine ⟨i1, i2, ?_, ?_⟩
      · intro j hj e
        simp only [List.map_append, List.map_cons, List.map_nil, List.mem_append, List.mem_singleton, not_or] at hj
        simp only [hj.2, and_false, if_false]
        exact i3 j hj.1 e
      · intro j s hm
        rcases List.mem_append.mp hm with hm1 | hm
        · have hji : j ≠ i := by
            rintro rfl
            exact hpre (List.mem_map.mpr ⟨(s, j), hm1, rfl⟩)
          obtain ⟨a1, a2, a3, w⟩ := i4 j s hm1
          refine ⟨a1, a2, a3, ?_⟩
          simp only [hji, and_false, if_false]
          exact w
        · obtain ⟨h1, h2⟩ := Prod.mk.inj (List.mem_singleton.mp hm)
          subst h1 h2
          refine ⟨e1, e2, e3, g1, g2, g3, ?_, ?_, ?_, ?_⟩
          · simp [d12, d13]
          · simp [d23]
          · simp
          · intro e n1 n2 n3
            simp only [n1, n2, n3, false_and, if_false]
            exact i3 j hpre e)
  obtain ⟨k1, k2, -, k4⟩ := key
  exact ⟨k1, k2, fun i t ht => k4 i t (List.mem_zipIdx_iff_getElem?.mpr ht)⟩

end Verif
