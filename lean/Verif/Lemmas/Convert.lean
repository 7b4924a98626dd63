import Verif.Model.Convert
import Verif.Lemmas.Lists
import Verif.Lemmas.Assemble
import Verif.Lemmas.RingComplex

/-! # Lemmas about the conversion of datasets -/

namespace Verif

variable {A B S F L : Type}

theorem foldE_append (f : S → A → Py S) (s : S) (l l' : List A) :
    foldE f s (l ++ l') = foldE f s l >>= fun s => foldE f s l' := by
  induction l generalizing s with
  | nil => rfl
  | cons a l ih =>
    simp only [List.cons_append, foldE]
    cases f s a with
    | error e => rfl
    | ok s' => simp only [ok_bind, ih]

/-- A loop whose body first computes something from the item alone. -/
theorem foldE_bind_map {g : A → Py B} {h : S → B → Py S} {f : S → A → Py S}
    (hf : ∀ s a, f s a = g a >>= h s) {l : List A} {s s' : S} :
    foldE f s l = .ok s' ↔ ∃ bs, mapE g l = .ok bs ∧ foldE h s bs = .ok s' := by
  induction l generalizing s with
  | nil => simp [foldE, mapE]
  | cons a l ih =>
    simp only [foldE, mapE, hf]
    cases hg : g a with
    | error e => simp [error_bind]
    | ok b =>
      simp only [ok_bind]
      cases hh : h s b with
      | error e =>
        simp only [error_bind, reduceCtorEq, false_iff, not_exists, not_and]
        intro bs hbs
        obtain ⟨bs', -, h2⟩ := bind_eq_ok.mp hbs
        obtain rfl := ok_inj.mp h2
        simp [foldE, hh, error_bind]
      | ok s1 =>
        simp only [ok_bind, ih]
        constructor
        · rintro ⟨bs, h1, h2⟩
          refine ⟨b :: bs, by rw [h1]; rfl, ?_⟩
          simp only [foldE, hh, ok_bind, h2]
        · rintro ⟨bs, h1, h2⟩
          obtain ⟨bs', h3, h4⟩ := bind_eq_ok.mp h1
          obtain rfl := ok_inj.mp h4
          refine ⟨bs', h3, ?_⟩
          simpa only [foldE, hh, ok_bind] using h2

/-- `nf'` is the table `nf` with the entries `es`. -/
structure Extends (nf nf' : List (Option Nat)) (es : List (Nat × Nat)) : Prop where
  len : nf'.length = nf.length
  has : ∀ (d w : Nat), (d, w) ∈ es → nf'[d]? = some (some w)
  keeps : ∀ (d w : Nat), nf[d]? = some (some w) → nf'[d]? = some (some w)
  only : ∀ (d w : Nat), nf'[d]? = some (some w) → nf[d]? = some (some w) ∨ (d, w) ∈ es

theorem recordWidth_eq_ok {nf nf' : List (Option Nat)} {d w : Nat} :
    recordWidth nf (d, w) = .ok nf' ↔
      (nf[d]? = some none ∧ nf' = nf.set d (some w)) ∨ (nf[d]? = some (some w) ∧ nf' = nf) := by
  unfold recordWidth getAt
  simp only
  cases h : nf[d]? with
  | none => simp [error_bind]
  | some o =>
    cases o with
    | none =>
      simp only [ok_bind, pure_eq_ok, Option.some.injEq, true_and, reduceCtorEq, false_and, or_false]
      constructor
      · intro h; exact (ok_inj.mp h).symm
      · rintro rfl; rfl
    | some n =>
      simp only [ok_bind, Option.some.injEq, reduceCtorEq, false_and, false_or]
      by_cases hn : n = w
      · subst hn
        simp only [pyAssert, beq_self_eq_true, if_true, ok_bind, pure_eq_ok, true_and]
        constructor
        · intro h; exact (ok_inj.mp h).symm
        · rintro rfl; rfl
      · simp [pyAssert, hn, error_bind]

theorem recordWidths_eq_ok {es : List (Nat × Nat)} {nf nf' : List (Option Nat)} :
    foldE recordWidth nf es = .ok nf' ↔ Extends nf nf' es := by
  induction es generalizing nf with
  | nil =>
    constructor
    · intro h
      obtain rfl := ok_inj.mp h
      exact ⟨rfl, by simp, fun _ _ h => h, fun _ _ h => .inl h⟩
    · intro h
      have : nf = nf' := by
        refine List.ext_getElem? fun d => ?_
        by_cases hd : d < nf.length
        · have hd' : d < nf'.length := h.len ▸ hd
          cases ha : nf[d] with
          | none =>
            cases hb : nf'[d] with
            | none => rw [List.getElem?_eq_getElem hd, List.getElem?_eq_getElem hd', ha, hb]
            | some w =>
              have := h.only d w (by rw [List.getElem?_eq_getElem hd', hb])
              rw [List.getElem?_eq_getElem hd, ha] at this
              simp at this
          | some w =>
            have h1 : nf[d]? = some (some w) := by rw [List.getElem?_eq_getElem hd, ha]
            rw [h1, h.keeps d w h1]
        · have hd' : ¬ d < nf'.length := h.len ▸ hd
          rw [List.getElem?_eq_none (by omega), List.getElem?_eq_none (by omega)]
      subst this
      rfl
  | cons e es ih =>
    obtain ⟨d, w⟩ := e
    simp only [foldE]
    rw [bind_eq_ok]
    constructor
    · rintro ⟨nf1, h1, h2⟩
      have h := ih.mp h2
      rcases recordWidth_eq_ok.mp h1 with ⟨hd, rfl⟩ | ⟨hd, rfl⟩
      · have hlt := lt_of_get hd
        refine ⟨by simpa using h.len, ?_, ?_, ?_⟩
        · intro d' w' hm
          rcases List.mem_cons.mp hm with heq | hm
          · cases heq
            exact h.keeps d w (by rw [List.getElem?_set_self hlt])
          · exact h.has d' w' hm
        · intro d' w' hk
          refine h.keeps d' w' ?_
          rw [List.getElem?_set]
          have : d ≠ d' := by rintro rfl; rw [hd] at hk; cases hk
          rw [if_neg this, hk]
        · intro d' w' hk
          rcases h.only d' w' hk with h3 | h3
          · rw [List.getElem?_set] at h3
            by_cases hdd : d = d'
            · subst hdd
              rw [if_pos rfl, if_pos hlt] at h3
              cases h3
              exact .inr (by simp)
            · rw [if_neg hdd] at h3; exact .inl h3
          · exact .inr (by simp [h3])
      · refine ⟨h.len, ?_, h.keeps, fun d' w' hk => (h.only d' w' hk).imp id (by intro h3; simp [h3])⟩
        intro d' w' hm
        rcases List.mem_cons.mp hm with heq | hm
        · cases heq; exact h.keeps d w hd
        · exact h.has d' w' hm
    · intro h
      have hw := h.has d w (by simp)
      have hlt : d < nf.length := h.len ▸ lt_of_get hw
      cases hd : nf[d] with
      | none =>
        have hd' : nf[d]? = some none := by rw [List.getElem?_eq_getElem hlt, hd]
        refine ⟨nf.set d (some w), recordWidth_eq_ok.mpr (.inl ⟨hd', rfl⟩), ih.mpr ?_⟩
        refine ⟨by simpa using h.len, fun d' w' hm => h.has d' w' (by simp [hm]), ?_, ?_⟩
        · intro d' w' hk
          rw [List.getElem?_set] at hk
          by_cases hdd : d = d'
          · subst hdd
            rw [if_pos rfl, if_pos hlt] at hk
            cases hk; exact hw
          · rw [if_neg hdd] at hk; exact h.keeps d' w' hk
        · intro d' w' hk
          rw [List.getElem?_set]
          by_cases hdd : d = d'
          · subst hdd
            rw [hw] at hk; cases hk
            rw [if_pos rfl, if_pos hlt]; exact .inl rfl
          · rw [if_neg hdd]
            rcases h.only d' w' hk with h3 | h3
            · exact .inl h3
            · rcases List.mem_cons.mp h3 with h4 | h4
              · cases h4; exact absurd rfl hdd
              · exact .inr h4
      | some n =>
        have hd' : nf[d]? = some (some n) := by rw [List.getElem?_eq_getElem hlt, hd]
        have : n = w := by have := h.keeps d n hd'; rw [hw] at this; cases this; rfl
        subst this
        refine ⟨nf, recordWidth_eq_ok.mpr (.inr ⟨hd', rfl⟩), ih.mpr ?_⟩
        refine ⟨h.len, fun d' w' hm => h.has d' w' (by simp [hm]), h.keeps, ?_⟩
        intro d' w' hk
        rcases h.only d' w' hk with h3 | h3
        · exact .inl h3
        · rcases List.mem_cons.mp h3 with h4 | h4
          · cases h4; exact .inl hd'
          · exact .inr h4

/-- The entry a complex contributes for a dimension. -/
def widthEntry (width : F → Nat) (comp : Complex F L) (dim : Nat) : Py (Nat × Nat) :=
  match comp.cochains[dim]? with
  | none => .error .key
  | some c => .ok (dim, c.numFeatures width)

theorem recordDims_eq_ok {width : F → Nat} {comp : Complex F L} {dims : List Nat}
    {nf nf' : List (Option Nat)} :
    foldE (recordDim width comp) nf dims = .ok nf' ↔
      ∃ es, mapE (widthEntry width comp) dims = .ok es ∧ foldE recordWidth nf es = .ok nf' := by
  refine foldE_bind_map fun s d => ?_
  unfold recordDim widthEntry
  cases comp.cochains[d]? <;> rfl

theorem largest_eq {comps : List (Complex F L)} {m : Option Nat} :
    match comps.foldl (fun m c => largerDim m c.dimension) m with
    | none => m = none ∧ comps = []
    | some k => (m = some k ∨ ∃ c ∈ comps, c.dimension = k) ∧ (∀ j, m = some j → j ≤ k) ∧
        ∀ c ∈ comps, c.dimension ≤ k := by
  induction comps generalizing m with
  | nil => cases m <;> simp
  | cons c comps ih =>
    have h := ih (m := largerDim m c.dimension)
    rw [List.foldl_cons]
    revert h
    cases comps.foldl (fun m c => largerDim m c.dimension) (largerDim m c.dimension) with
    | none =>
      rintro ⟨h, -⟩
      unfold largerDim at h
      split at h
      · cases h
      · split at h <;> cases h
    | some k =>
      rintro ⟨h1, h2, h3⟩
      cases m with
      | none =>
        simp only [largerDim] at h1 h2
        refine ⟨.inr ?_, by simp, ?_⟩
        · rcases h1 with h1 | ⟨c', hc', hd⟩
          · cases h1; exact ⟨c, by simp, rfl⟩
          · exact ⟨c', by simp [hc'], hd⟩
        · intro c' hc'
          rcases List.mem_cons.mp hc' with rfl | hc'
          · exact h2 _ rfl
          · exact h3 c' hc'
      | some j =>
        simp only [largerDim] at h1 h2
        by_cases hj : j < c.dimension
        · simp only [hj, if_true] at h1 h2
          have := h2 _ rfl
          refine ⟨.inr ?_, ?_, ?_⟩
          · rcases h1 with h1 | ⟨c', hc', hd⟩
            · cases h1; exact ⟨c, by simp, rfl⟩
            · exact ⟨c', by simp [hc'], hd⟩
          · intro j' hj'; cases hj'; omega
          · intro c' hc'
            rcases List.mem_cons.mp hc' with rfl | hc'
            · exact this
            · exact h3 c' hc'
        · simp only [hj, if_false] at h1 h2
          have := h2 _ rfl
          refine ⟨?_, ?_, ?_⟩
          · rcases h1 with h1 | ⟨c', hc', hd⟩
            · exact .inl h1
            · exact .inr ⟨c', by simp [hc'], hd⟩
          · exact h2
          · intro c' hc'
            rcases List.mem_cons.mp hc' with rfl | hc'
            · omega
            · exact h3 c' hc'

theorem recordComplexes_eq_ok {width : F → Nat} {comps : List (Complex F L)} {m m' : Option Nat}
    {nf nf' : List (Option Nat)} :
    foldE (recordComplex width) (m, nf) comps = .ok (m', nf') ↔
      m' = comps.foldl (fun m c => largerDim m c.dimension) m ∧
      ∃ ess, List.Forall₂ (fun (comp : Complex F L) es =>
          mapE (widthEntry width comp) (List.range (comp.dimension + 1)) = .ok es) comps ess ∧
        Extends nf nf' ess.flatten := by
  simp only [← recordWidths_eq_ok]
  induction comps generalizing m nf with
  | nil =>
    simp only [foldE, List.foldl_nil, List.forall₂_nil_left_iff, exists_eq_left, List.flatten_nil]
    constructor
    · intro h; cases h; exact ⟨rfl, rfl⟩
    · rintro ⟨rfl, h⟩; cases h; rfl
  | cons c comps ih =>
    simp only [foldE, List.foldl_cons]
    rw [bind_eq_ok]
    constructor
    · rintro ⟨⟨m1, nf1⟩, h1, h2⟩
      obtain ⟨nf2, h3, h4⟩ := bind_eq_ok.mp h1
      cases ok_inj.mp h4
      obtain ⟨h5, ess, h6, h7⟩ := ih.mp h2
      obtain ⟨es, h8, h9⟩ := recordDims_eq_ok.mp h3
      refine ⟨h5, es :: ess, .cons h8 h6, ?_⟩
      rw [List.flatten_cons, foldE_append, h9]
      exact h7
    · rintro ⟨rfl, ess, h1, h2⟩
      obtain ⟨es, ess, rfl⟩ : ∃ es ess', ess = es :: ess' := by
        cases h1; exact ⟨_, _, rfl⟩
      obtain ⟨h3, h4⟩ := List.forall₂_cons.mp h1
      rw [List.flatten_cons, foldE_append] at h2
      obtain ⟨nf1, h5, h6⟩ := bind_eq_ok.mp h2
      refine ⟨(largerDim m c.dimension, nf1), ?_, ih.mpr ⟨rfl, ess, h4, h6⟩⟩
      unfold recordComplex
      rw [recordDims_eq_ok.mpr ⟨es, h3, h5⟩]
      rfl

/-- There are cells in every dimension of a tree. -/
theorem cellsOf_ne_nil {st : SimplexTree} {size : Nat} (h : st.Holds size) {d : Nat} (hd : d < st.dims) :
    st.cellsOf size d ≠ [] := by
  have key : ∀ n, ∀ s ∈ st.simplices, s.length = d + 1 + n → ∃ t ∈ st.simplices, t.length = d + 1 := by
    intro n
    induction n with
    | zero => exact fun s hs hl => ⟨s, hs, hl⟩
    | succ n ih =>
      intro s hs hl
      have hlen : (s.eraseIdx 0).length = d + 1 + n := by
        rw [List.length_eraseIdx, if_pos (by omega)]; omega
      have hf : IsFacet (s.eraseIdx 0) s := ⟨List.eraseIdx_sublist _ _, by omega⟩
      refine ih _ (h.closed s hs _ ?_ hf) hlen
      intro h0
      rw [h0] at hlen
      simp at hlen
      omega
  obtain ⟨s, hs, hl⟩ := dims_attained (st := st) (by omega)
  obtain ⟨t, ht, htl⟩ := key (st.dims - (d + 1)) s hs (by omega)
  exact List.ne_nil_of_mem ((mem_cellsOf h).mpr ⟨ht, htl⟩)

end Verif
