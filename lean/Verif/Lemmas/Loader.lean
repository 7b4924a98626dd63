import Verif.Model.Loader
import Verif.Props.Dataset
import Verif.Props.Evaluation
import Verif.Lemmas.EmbedBatch

/-!
# Lemmas on loaders
-/

namespace Verif

section
variable {A : Type}

theorem chunksFrom_spec {b : Nat} (hb : 0 < b) : ∀ (fuel : Nat) (l : List A), l.length ≤ fuel →
    (chunksFrom b fuel l).flatten = l ∧ (∀ p ∈ chunksFrom b fuel l, p ≠ [] ∧ p.length ≤ b) ∧
      (∀ p ∈ (chunksFrom b fuel l).dropLast, p.length = b) := by
  intro fuel
  induction fuel with
  | zero =>
    intro l hl
    have : l = [] := List.length_eq_zero_iff.mp (by omega)
    subst this
    simp [chunksFrom]
  | succ fuel ih =>
    intro l hl
    cases l with
    | nil => simp [chunksFrom]
    | cons a l =>
      rw [chunksFrom]
      · obtain ⟨h1, h2, h3⟩ := ih ((a :: l).drop b) (by rw [List.length_drop]; simp at hl ⊢; omega)
        refine ⟨?_, ?_, ?_⟩
        · rw [List.flatten_cons, h1, List.take_append_drop]
        · intro p hp
          rcases List.mem_cons.mp hp with rfl | hp
          · refine ⟨?_, by simp⟩
            intro h
            have := congrArg List.length h
            simp at this
            omega
          · exact h2 p hp
        · intro p hp
          cases hc : chunksFrom b fuel ((a :: l).drop b) with
          | nil => rw [hc] at hp; simp at hp
          | cons q qs =>
            rw [hc, List.dropLast_cons_of_ne_nil (by simp)] at hp
            rcases List.mem_cons.mp hp with rfl | hp
            · rw [List.length_take]
              have hd : ((a :: l).drop b) ≠ [] := by
                intro h0
                rw [h0] at hc
                cases fuel <;> simp [chunksFrom] at hc
              have : 0 < ((a :: l).drop b).length := List.length_pos_of_ne_nil hd
              rw [List.length_drop] at this
              omega
            · exact h3 p (by rw [hc]; exact hp)
      · simp

theorem chunksFrom_length {b : Nat} (hb : 0 < b) : ∀ (fuel : Nat) (l : List A), l.length ≤ fuel →
    (chunksFrom b fuel l).length = (l.length + b - 1) / b := by
  intro fuel
  induction fuel with
  | zero =>
    intro l hl
    have : l = [] := List.length_eq_zero_iff.mp (by omega)
    subst this
    simp [chunksFrom]
    exact (Nat.div_eq_of_lt (by omega)).symm
  | succ fuel ih =>
    intro l hl
    cases l with
    | nil =>
      simp [chunksFrom]
      exact (Nat.div_eq_of_lt (by omega)).symm
    | cons a l =>
      rw [chunksFrom]
      · rw [List.length_cons, ih _ (by rw [List.length_drop]; simp at hl ⊢; omega), List.length_drop]
        generalize hn : (a :: l).length = n
        have hn0 : 0 < n := by rw [← hn]; simp
        by_cases hle : n ≤ b
        · have e1 : (n - b + b - 1) / b = 0 := Nat.div_eq_of_lt (by omega)
          have e2 : (n + b - 1) / b = 1 := by
            rw [show n + b - 1 = (n - 1) + b by omega, Nat.add_div_right _ hb, Nat.div_eq_of_lt (by omega)]
          rw [e1, e2]
        · rw [show n - b + b - 1 = n - 1 by omega, show n + b - 1 = (n - 1) + b by omega, Nat.add_div_right _ hb]
      · simp

theorem chunks_spec {b : Nat} (hb : 0 < b) (l : List A) :
    (chunks b l).flatten = l ∧ (∀ p ∈ chunks b l, p ≠ [] ∧ p.length ≤ b) ∧
      (∀ p ∈ (chunks b l).dropLast, p.length = b) ∧ (chunks b l).length = (l.length + b - 1) / b :=
  ⟨(chunksFrom_spec hb _ l le_rfl).1, (chunksFrom_spec hb _ l le_rfl).2.1, (chunksFrom_spec hb _ l le_rfl).2.2,
    chunksFrom_length hb _ l le_rfl⟩

end

section
variable {F L : Type}

theorem getMany_ok {order : List (List Nat) → List (List Nat)} {n : Nat} {st : Storage F L}
    (hl : st.len order = n) (hr : ∀ i, n ≤ i → st.read i = .error .index) :
    ∀ (ids : List Nat) (ds : Dataset F L), ds.storage = st → CacheOk st n ds.cache →
      (ds.getMany order ids).2 = mapE st.read ids ∧ (ds.getMany order ids).1.storage = st ∧
        CacheOk st n (ds.getMany order ids).1.cache := by
  intro ids
  induction ids with
  | nil => intro ds hs hc; exact ⟨rfl, hs, hc⟩
  | cons i ids ih =>
    intro ds hs hc
    subst hs
    obtain ⟨h1, h2, h3⟩ := get_ok hl hr hc i
    obtain ⟨e1, e2, e3⟩ := ih (ds.get order i).1 h2 h3
    rw [mapE_cons]
    cases hg : ds.get order i with
    | mk ds' r =>
      rw [hg] at h1 h2 h3 e1 e2 e3
      cases r with
      | error e =>
        simp only [Dataset.getMany, hg]
        rw [← h1]
        exact ⟨rfl, h2, h3⟩
      | ok c =>
        simp only at h1 e1 e2 e3
        cases hm : ds'.getMany order ids with
        | mk ds'' r' =>
          rw [hm] at e1 e2 e3
          simp only [Dataset.getMany, hg, hm]
          rw [← h1, ok_bind, ← e1]
          cases r' with
          | error e => exact ⟨rfl, e2, e3⟩
          | ok cs => exact ⟨rfl, e2, e3⟩

/-- Batches are made of the items as they are read without a cache. -/
theorem loads_ok {order : List (List Nat) → List (List Nat)} {n maxDim : Nat} {st : Storage F L}
    (hl : st.len order = n) (hr : ∀ i, n ≤ i → st.read i = .error .index) :
    ∀ (parts : List (List Nat)) (ds : Dataset F L), ds.storage = st → CacheOk st n ds.cache →
      ds.load order maxDim parts =
        mapE (fun ids => mapE st.read ids >>= fun comps => fromComplexList comps maxDim) parts := by
  intro parts
  induction parts with
  | nil => intros; rfl
  | cons ids parts ih =>
    intro ds hs hc
    obtain ⟨h1, h2, h3⟩ := getMany_ok hl hr ids ds hs hc
    rw [mapE_cons, Dataset.load, h1, ih _ h2 h3]
    cases mapE st.read ids <;> rfl

end

section
variable {R L : Type}

theorem nonEmpty_getD {A : Type} (v : Option (List A)) : (nonEmpty v).getD [] = v.getD [] := by
  rcases v with _ | _ | _ <;> rfl

theorem nonEmpty_isSome {A : Type} (v : Option (List A)) : (nonEmpty v).isSome = decide (v.getD [] ≠ []) := by
  rcases v with _ | _ | _ <;> simp [nonEmpty]

theorem nonEmpty_both {A B : Type} {v : Option (List A)} {w : Option (List B)}
    (h : (w.getD []).length = (v.getD []).length) : (nonEmpty v).isSome = (nonEmpty w).isSome := by
  rw [nonEmpty_isSome, nonEmpty_isSome]
  congr 1
  rw [ne_eq, ne_eq, ← List.length_eq_zero_iff, ← List.length_eq_zero_iff, h]

theorem SameComplex.get {c c' : Complex R L} (h : SameComplex c c') {d : Nat} {k' : Cochain R L}
    (hk : c'.cochains[d]? = some k') : ∃ k, c.cochains[d]? = some k ∧ SameCells k k' := by
  have hlt : d < c.cochains.length := by
    rw [← h.len]; exact (List.getElem?_eq_some_iff.mp hk).1
  exact ⟨_, List.getElem?_eq_getElem hlt, h.cells d _ _ (List.getElem?_eq_getElem hlt) hk⟩

theorem SameComplex.isSome {c c' : Complex R L} (h : SameComplex c c') (d : Nat) :
    (c'.cochains[d]?).isSome = (c.cochains[d]?).isSome := by
  rw [Bool.eq_iff_iff]
  simp [h.len]

theorem SameComplex.attr {A : Type} {c c' : Complex R L} (h : SameComplex c c') (d : Nat)
    (get : Cochain R L → Option (List A)) (hg : ∀ k k', SameCells k k' → get k' = nonEmpty (get k)) :
    c'.attr d get = nonEmpty (c.attr d get) := by
  unfold Complex.attr
  cases hk : c'.cochains[d]? with
  | none =>
    have := h.isSome d
    rw [hk] at this
    cases hk2 : c.cochains[d]? with
    | none => rfl
    | some k => rw [hk2] at this; simp at this
  | some k' =>
    obtain ⟨k, h1, h2⟩ := h.get hk
    rw [h1]
    exact hg k k' h2

theorem SameComplex.view {c c' : Complex R L} (h : SameComplex c c') : c'.view = c.view := by
  unfold Complex.view
  congr 1
  · funext d
    rw [h.attr d _ fun k k' s => s.x, nonEmpty_getD]
  · funext d
    rw [h.isSome, h.attr d _ fun k k' s => s.upperIndex, h.attr d _ fun k k' s => s.sharedCoboundaries, nonEmpty_getD,
      nonEmpty_getD]
  · funext d
    cases d with
    | zero => rfl
    | succ d =>
      simp only
      rw [h.attr (d + 1) _ fun k k' s => s.lowerIndex, h.attr (d + 1) _ fun k k' s => s.sharedBoundaries, nonEmpty_getD,
        nonEmpty_getD]
  · funext d
    cases d with
    | zero => rfl
    | succ d =>
      simp only
      rw [h.attr (d + 1) _ fun k k' s => s.boundaryIndex, nonEmpty_getD]

theorem SameComplex.cellsIn {c c' : Complex R L} (h : SameComplex c c') (d : Nat) : c'.cellsIn d = c.cellsIn d := by
  unfold Complex.cellsIn
  cases hk : c'.cochains[d]? with
  | none =>
    have := h.isSome d
    rw [hk] at this
    cases hk2 : c.cochains[d]? with
    | none => rfl
    | some k => rw [hk2] at this; simp at this
  | some k' =>
    obtain ⟨k, h1, h2⟩ := h.get hk
    rw [h1]
    simp only [Option.map_some, Option.getD_some]
    unfold Cochain.count
    rw [h2.count]

theorem SameComplex.valid {c c' : Complex R L} (h : SameComplex c c') (hr : c.Valid)
    (hfull : ∀ d ≤ c.dimension, 0 < c.cellsIn d) : c'.Valid := by
  have hdim : ∀ {d : Nat} {k : Cochain R L}, c.cochains[d]? = some k → d ≤ c.dimension := by
    intro d k hk
    have := (List.getElem?_eq_some_iff.mp hk).1
    rw [hr.len] at this
    omega
  have hbelow : ∀ d, c'.cellsBelow d = c.cellsBelow d := by
    intro d
    cases d with
    | zero => rfl
    | succ d => exact h.cellsIn d
  refine ⟨⟨?_, ?_, ?_, ?_⟩, ?_, ?_, ?_⟩
  · rw [h.len, h.dimension, hr.len]
  · intro d k' hk
    obtain ⟨k, h1, h2⟩ := h.get hk
    rw [h2.dim, hr.dim d k h1]
  · intro d k' q' hk hq
    obtain ⟨k, h1, h2⟩ := h.get hk
    obtain ⟨q, h3, h4⟩ := h.get hq
    have e := hr.up d k q h1 h3
    rw [count_of_valid hr h3] at e
    rw [h4.count, count_of_valid hr h3, h2.up _ e]
    rfl
  · intro d k' q' hk hq
    obtain ⟨k, h1, h2⟩ := h.get hk
    obtain ⟨q, h3, h4⟩ := h.get hq
    rw [h4.down, h2.count, hr.down d k q h1 h3]
  · intro k' hk
    obtain ⟨d, hd⟩ := List.mem_iff_getElem?.mp hk
    obtain ⟨k, h1, h2⟩ := h.get hd
    exact ⟨_, h2.count.trans (count_of_valid hr h1)⟩
  · intro k' hk
    rw [h.dimension] at hk
    obtain ⟨k, h1, h2⟩ := h.get hk
    obtain ⟨n, h3, h4⟩ := hr.top k h1
    exact ⟨_, h2.up n h3, h4⟩
  · intro d k' hk
    obtain ⟨k, h1, h2⟩ := h.get hk
    have v := hr.valid d k h1
    rw [hbelow, h.cellsIn, h.cellsIn]
    refine ⟨?_, ?_, ?_, ?_, ?_, ?_, ?_, ?_, ?_, ?_, ?_⟩
    · rw [h2.batch, h2.ptr, v.plain.1, v.plain.2]; exact ⟨rfl, rfl⟩
    · intro x hx
      rw [h2.x] at hx
      cases hkx : k.x with
      | none => rw [hkx] at hx; cases hx
      | some y =>
        rw [hkx] at hx
        cases y with
        | nil => cases hx
        | cons a y =>
          cases hx
          exact v.rows _ hkx
    · rw [h2.upperIndex, nonEmpty_getD]; exact v.upper
    · rw [h2.upperIndex, h2.sharedCoboundaries, nonEmpty_getD, nonEmpty_getD]; exact v.upperShared
    · rw [h2.upperIndex, h2.sharedCoboundaries]; exact nonEmpty_both v.upperShared
    · rw [h2.sharedCoboundaries, nonEmpty_getD]; exact v.shared
    · rw [h2.lowerIndex, nonEmpty_getD]; exact v.lower
    · rw [h2.lowerIndex, h2.sharedBoundaries, nonEmpty_getD, nonEmpty_getD]; exact v.lowerShared
    · rw [h2.lowerIndex, h2.sharedBoundaries]; exact nonEmpty_both v.lowerShared
    · rw [h2.sharedBoundaries, nonEmpty_getD]; exact v.sharedDown
    · rw [h2.boundaryIndex, nonEmpty_getD]; exact v.boundary

theorem SameComplex.ready {c c' : Complex R L} (h : SameComplex c c') (hr : c.Ready)
    (hfull : ∀ d ≤ c.dimension, 0 < c.cellsIn d) : c'.Ready := by
  have hdim : ∀ {d : Nat} {k : Cochain R L}, c.cochains[d]? = some k → d ≤ c.dimension := by
    intro d k hk
    have := (List.getElem?_eq_some_iff.mp hk).1
    rw [hr.valid.len] at this
    omega
  refine ⟨h.valid hr.valid hfull, ?_, ?_⟩
  · intro k' hk
    obtain ⟨d, hd⟩ := List.mem_iff_getElem?.mp hk
    obtain ⟨k, h1, h2⟩ := h.get hd
    have hf := hr.featured k (List.mem_of_getElem? h1)
    obtain ⟨x, hx⟩ := Option.isSome_iff_exists.mp hf
    have hlen := (hr.valid.valid d k h1).rows x hx
    have := hfull d (hdim h1)
    rw [h2.x, hx]
    cases x with
    | nil => simp at hlen; omega
    | cons a x => rfl
  · rw [h.attr 0 _ fun k k' s => s.lowerIndex, hr.vertices]
    rfl

end

end Verif
