import Verif.Lemmas.Perm
import Verif.Props.Lifting

/-!
# C50, C51: permutation matrices and permuted graphs
-/

namespace Verif

variable {R L : Type}

theorem isEye_matrixOf {P : Mat} {n : Nat} {σ : Nat → Nat} (hP : MatrixOf P n σ) (hσ : IsPermutation n σ) :
    isEye P n = true ↔ ∀ i, i < n → σ i = i := by
  unfold isEye
  rw [decide_eq_true hP.rows, decide_eq_true hP.cols, Bool.and_self, Bool.true_and, List.all_eq_true]
  simp only [List.all_eq_true, List.mem_range, decide_eq_true_eq]
  constructor
  · intro h i hi
    have := h i hi (σ i) (hσ.lt i hi)
    rw [hP.entry i _ hi (hσ.lt i hi), if_pos rfl] at this
    by_contra hne
    rw [if_neg (fun e => hne e.symm)] at this
    omega
  · intro h i hi j hj
    rw [hP.entry i j hi hj, h i hi]

/-- **C50** A matrix passes the validation if and only if it is the matrix of a permutation of `n` nodes, other than
the identity if there is more than one node. -/
theorem C50_valid_iff_permutation (P : Mat) (n : Nat) :
    isValidPermutationMatrix P n = .ok true ↔
      ∃ σ, IsPermutation n σ ∧ MatrixOf P n σ ∧ (1 < n → ∃ i, i < n ∧ σ i ≠ i) := by
  constructor
  · intro h
    obtain ⟨⟨σ, h1, h2⟩, h3⟩ := perm_of_valid h
    refine ⟨σ, h1, h2, fun hn => ?_⟩
    have := h3 hn
    rw [← Bool.not_eq_true, isEye_matrixOf h2 h1] at this
    push Not at this
    exact this
  · rintro ⟨σ, h1, h2, h3⟩
    rw [valid_of_perm h1 h2, ok_inj]
    by_cases hn : n ≤ 1
    · rw [decide_eq_true hn, Bool.true_or]
    · obtain ⟨i, hi, hne⟩ := h3 (by omega)
      rw [decide_eq_false hn, Bool.false_or, Bool.not_eq_true', ← Bool.not_eq_true, isEye_matrixOf h2 h1]
      exact fun h => hne (h i hi)

/-- **C50** For one node exactly the matrix with the single entry 1 passes. -/
theorem C50_one_node (P : Mat) :
    isValidPermutationMatrix P 1 = .ok true ↔ P.rows = 1 ∧ P.cols = 1 ∧ P.entry 0 0 = 1 := by
  rw [C50_valid_iff_permutation]
  constructor
  · rintro ⟨σ, h1, h2, -⟩
    have h0 := h1.lt 0 (by omega)
    refine ⟨h2.rows, h2.cols, ?_⟩
    rw [h2.entry 0 0 (by omega) (by omega), if_pos (by omega)]
  · rintro ⟨h1, h2, h3⟩
    refine ⟨id, ⟨fun i hi => hi, fun i j _ _ e => e⟩, ⟨h1, h2, fun i j hi hj => ?_⟩, fun h => by omega⟩
    obtain rfl : i = 0 := by omega
    obtain rfl : j = 0 := by omega
    simpa using h3

/-- **C50** The validation of a square matrix never fails: every other matrix is reported invalid. -/
theorem C50_square_matrices (P : Mat) (n : Nat) (h1 : P.rows = n) (h2 : P.cols = n) :
    ∃ b, isValidPermutationMatrix P n = .ok b := by
  have hmax : ∀ l : List Int, l ≠ [] → ∃ m, maxOf l = .ok m := by
    intro l hl
    cases l with
    | nil => exact absurd rfl hl
    | cons a l => exact ⟨_, rfl⟩
  have hmin : ∀ l : List Int, l ≠ [] → ∃ m, minOf l = .ok m := by
    intro l hl
    cases l with
    | nil => exact absurd rfl hl
    | cons a l => exact ⟨_, rfl⟩
  have hc : ∀ l ∈ P.columns, l ≠ [] := by
    intro l hl
    obtain ⟨j, hj, rfl⟩ := List.mem_map.mp hl
    rw [List.mem_range] at hj
    simp
    omega
  have hr : ∀ l ∈ P.rowLists, l ≠ [] := by
    intro l hl
    obtain ⟨j, hj, rfl⟩ := List.mem_map.mp hl
    rw [List.mem_range] at hj
    simp
    omega
  have hex : ∀ (f : List Int → Py Int) (ls : List (List Int)), (∀ l ∈ ls, ∃ m, f l = .ok m) →
      ∃ r, mapE f ls = .ok r := by
    intro f ls
    induction ls with
    | nil => exact fun _ => ⟨[], rfl⟩
    | cons a ls ih =>
      intro h
      obtain ⟨m, hm⟩ := h a (by simp)
      obtain ⟨r, hr⟩ := ih (fun l hl => h l (by simp [hl]))
      exact ⟨m :: r, by rw [mapE_cons, hm, ok_bind, hr]; rfl⟩
  obtain ⟨m0, e0⟩ := hex maxOf P.columns fun l hl => hmax l (hc l hl)
  obtain ⟨m1, e1⟩ := hex maxOf P.rowLists fun l hl => hmax l (hr l hl)
  obtain ⟨m2, e2⟩ := hex minOf P.columns fun l hl => hmin l (hc l hl)
  obtain ⟨m3, e3⟩ := hex minOf P.rowLists fun l hl => hmin l (hr l hl)
  unfold isValidPermutationMatrix
  rw [e0, ok_bind, e1, ok_bind]
  unfold checkMany
  split
  · unfold validMany
    rw [e2, ok_bind, e3, ok_bind]
    exact ⟨_, rfl⟩
  · exact ⟨_, rfl⟩

theorem eyeRows_matrixOf {perm : List Nat} {size : Nat} (h : perm.Perm (List.range size)) :
    IsPermutation size (fun i => perm[i]?.getD 0) ∧ MatrixOf (eyeRows perm size) size fun i => perm[i]?.getD 0 := by
  have hl : perm.length = size := by rw [h.length_eq, List.length_range]
  have hg : ∀ i, i < size → ∃ v, perm[i]? = some v ∧ v < size := by
    intro i hi
    refine ⟨_, List.getElem?_eq_getElem (by omega), ?_⟩
    exact List.mem_range.mp (h.mem_iff.mp (List.getElem_mem _))
  refine ⟨⟨fun i hi => ?_, fun i j hi hj e => ?_⟩, hl, rfl, fun i j hi hj => ?_⟩
  · obtain ⟨v, hv, hlt⟩ := hg i hi
    rw [hv]
    exact hlt
  · have hnd : perm.Nodup := h.nodup_iff.mpr List.nodup_range
    rw [List.getElem?_eq_getElem (by omega), List.getElem?_eq_getElem (by omega)] at e
    exact (List.Nodup.getElem_inj_iff hnd (hi := by omega) (hj := by omega)).mp e
  · obtain ⟨v, hv, -⟩ := hg i hi
    show (if perm[i]? = some j then 1 else 0) = if perm[i]?.getD 0 = j then 1 else 0
    rw [hv]
    simp

/-- **C50** The generated matrices: if the random state yields permutations, the loop keeps exactly those that are
not the identity (and all of them if there is one node or none), in the order drawn, until there are `amount`. -/
theorem C50_generated (size amount : Nat) (perms : List (List Nat)) (hp : ∀ p ∈ perms, p.Perm (List.range size))
    (Ps : List Mat) (h : generatePermutationMatrices size amount perms [] = .ok (some Ps)) :
    Ps = (((perms.filter fun p => decide (size ≤ 1) || decide (p ≠ List.range size)).take amount).map
      fun p => eyeRows p size) ∧ Ps.length = amount ∧
    ∀ P ∈ Ps, isValidPermutationMatrix P size = .ok true := by
  have hvalid : ∀ p ∈ perms, isValidPermutationMatrix (eyeRows p size) size =
      .ok (decide (size ≤ 1) || decide (p ≠ List.range size)) := by
    intro p hpm
    obtain ⟨h1, h2⟩ := eyeRows_matrixOf (hp p hpm)
    rw [valid_of_perm h1 h2, ok_inj]
    congr 1
    rw [Bool.eq_iff_iff, Bool.not_eq_true', ← Bool.not_eq_true, isEye_matrixOf h2 h1, decide_eq_true_eq]
    apply not_congr
    have hl : p.length = size := by rw [(hp p hpm).length_eq, List.length_range]
    constructor
    · intro hi
      apply List.ext_getElem
      · simp [hl]
      · intro i a b
        have := hi i (by omega)
        rw [List.getElem?_eq_getElem a] at this
        simpa using this
    · rintro rfl i hi
      simp [hi]
  have key : ∀ (perms : List (List Nat)) (acc Ps : List Mat), (∀ p ∈ perms,
      isValidPermutationMatrix (eyeRows p size) size = .ok (decide (size ≤ 1) || decide (p ≠ List.range size))) →
      acc.length ≤ amount → generatePermutationMatrices size amount perms acc = .ok (some Ps) →
      Ps = acc ++ (((perms.filter fun p => decide (size ≤ 1) || decide (p ≠ List.range size)).take
        (amount - acc.length)).map fun p => eyeRows p size) ∧ Ps.length = amount := by
    intro perms
    induction perms with
    | nil =>
      intro acc Ps _ hle h
      simp only [generatePermutationMatrices, ok_inj] at h
      split at h
      · obtain rfl := Option.some.inj h
        refine ⟨by simp, by omega⟩
      · cases h
    | cons p perms ih =>
      intro acc Ps hv hle h
      simp only [generatePermutationMatrices] at h
      split at h
      · next hge =>
        obtain rfl := Option.some.inj (ok_inj.mp h)
        have : amount - acc.length = 0 := by omega
        exact ⟨by simp [this], by omega⟩
      · next hlt =>
        unfold keepValid at h
        rw [hv p (by simp), ok_bind] at h
        rw [List.filter_cons]
        by_cases hb : (decide (size ≤ 1) || decide (p ≠ List.range size)) = true
        · rw [hb] at h
          simp only [if_true] at h
          have h' : generatePermutationMatrices size amount perms (acc ++ [eyeRows p size]) = .ok (some Ps) := h
          obtain ⟨h1, h2⟩ := ih _ Ps (fun q hq => hv q (by simp [hq])) (by simp; omega) h'
          refine ⟨?_, h2⟩
          rw [h1, if_pos hb]
          obtain ⟨k, hk⟩ : ∃ k, amount - acc.length = k + 1 := ⟨amount - acc.length - 1, by omega⟩
          have hk' : amount - (acc ++ [eyeRows p size]).length = k := by simp; omega
          rw [hk, hk', List.take_succ_cons, List.map_cons, List.append_assoc]
          rfl
        · rw [if_neg hb]
          rw [Bool.not_eq_true] at hb
          rw [hb] at h
          exact ih _ Ps (fun q hq => hv q (by simp [hq])) hle h
  obtain ⟨h1, h2⟩ := key perms [] Ps hvalid (by simp) h
  refine ⟨by simpa using h1, h2, ?_⟩
  intro P hP
  rw [h1] at hP
  simp only [List.nil_append, List.mem_map] at hP
  obtain ⟨p, hpm, rfl⟩ := hP
  have hpm := List.mem_of_mem_take hpm
  rw [List.mem_filter] at hpm
  rw [hvalid p hpm.1, hpm.2]

/-! ### C51 -/

theorem matRows_perm [AddCommGroup R] {P : Mat} {n : Nat} {σ : Nat → Nat} (hP : MatrixOf P n σ)
    (hσ : IsPermutation n σ) {x : List R} (hx : x.length = n) :
    ∃ x', matRows P x = .ok x' ∧ x'.length = n ∧ ∀ i, i < n → x'[i]? = x[σ i]? := by
  unfold matRows
  rw [if_pos (by rw [hP.cols, hx])]
  refine ⟨_, rfl, by simp [hP.rows], fun i hi => ?_⟩
  have hs := hσ.lt i hi
  rw [List.getElem?_map, List.getElem?_range (by rw [hP.rows]; exact hi), Option.map_some]
  have key : ∀ (y : List R) (o : Nat), (∀ k, k < y.length → P.entry i (o + k) = if σ i = o + k then 1 else 0) →
      ((y.zipIdx o).map fun p => P.entry i p.2 • p.1).sum = if o ≤ σ i then (y[σ i - o]?).getD 0 else 0 := by
    intro y
    induction y with
    | nil =>
      intro o _
      simp
    | cons a y ih =>
      intro o he
      rw [List.zipIdx_cons, List.map_cons, List.sum_cons, ih (o + 1) (fun k hk => by
        have := he (k + 1) (by simpa using hk)
        rwa [show o + (k + 1) = o + 1 + k by omega] at this)]
      have h0 := he 0 (by simp)
      simp only [Nat.add_zero] at h0
      rw [h0]
      by_cases h1 : σ i = o
      · rw [if_pos h1, if_neg (by omega), if_pos (by omega), one_smul, add_zero]
        simp [h1]
      · rw [if_neg h1, zero_smul, zero_add]
        by_cases h2 : o ≤ σ i
        · rw [if_pos h2, if_pos (by omega)]
          obtain ⟨k, hk⟩ : ∃ k, σ i = o + 1 + k := ⟨σ i - (o + 1), by omega⟩
          rw [hk, show o + 1 + k - (o + 1) = k by omega, show o + 1 + k - o = k + 1 by omega, List.getElem?_cons_succ]
        · rw [if_neg h2, if_neg (by omega)]
  rw [key x 0 (fun k hk => by rw [Nat.zero_add]; exact hP.entry i k hi (by omega)), if_pos (by omega), Nat.sub_zero,
    List.getElem?_eq_getElem (by omega)]
  rfl

/-- **C51** Permuting a graph with the matrix of a permutation `σ`: node `i` of the result carries the features (and
the label, if there is one per node) of node `σ i`, and is joined to node `j` exactly if `σ i` is joined to `σ j`;
other labels are kept. Every edge is stored once. -/
theorem C51_permuted_graph [AddCommGroup R] [AddCommGroup L] (lib : CooLib) (hlib : lib.Correct) (graph : PGraph R L)
    (P : Mat) (σ : Nat → Nat) (hattr : graph.hasEdgeAttr = false) (hσ : IsPermutation graph.x.length σ)
    (hP : MatrixOf P graph.x.length σ) (hid : 1 < graph.x.length → ∃ i, i < graph.x.length ∧ σ i ≠ i)
    (hedges : ∀ e ∈ graph.edges, e.1 < graph.x.length ∧ e.2 < graph.x.length) :
    ∃ out, permuteGraph lib graph P = .ok out ∧
      out.x.length = graph.x.length ∧ (∀ i, i < graph.x.length → out.x[i]? = graph.x[σ i]?) ∧
      (graph.y = none → out.y = none) ∧
      (∀ y, graph.y = some y → y.length ≠ graph.x.length → out.y = some y) ∧
      (∀ y, graph.y = some y → y.length = graph.x.length → ∃ y', out.y = some y' ∧ y'.length = y.length ∧
        ∀ i, i < graph.x.length → y'[i]? = y[σ i]?) ∧
      out.edges.Nodup ∧
      ∀ i j, (i, j) ∈ out.edges ↔ i < graph.x.length ∧ j < graph.x.length ∧ (σ i, σ j) ∈ graph.edges := by
  obtain ⟨x', hx, hxl, hxv⟩ := matRows_perm hP hσ rfl
  have hvalid := (C50_valid_iff_permutation P graph.x.length).mpr ⟨σ, hσ, hP, hid⟩
  obtain ⟨y', hy, hy1, hy2, hy3⟩ : ∃ y', permLabels P graph.x.length graph.y = .ok y' ∧
      (graph.y = none → y' = none) ∧
      (∀ y, graph.y = some y → y.length ≠ graph.x.length → y' = some y) ∧
      (∀ y, graph.y = some y → y.length = graph.x.length → ∃ y'', y' = some y'' ∧ y''.length = y.length ∧
        ∀ i, i < graph.x.length → y''[i]? = y[σ i]?) := by
    cases hgy : graph.y with
    | none => exact ⟨none, rfl, fun _ => rfl, fun y h => by simp at h, fun y h => by simp at h⟩
    | some y =>
      by_cases hl : y.length = graph.x.length
      · obtain ⟨y', h1, h2, h3⟩ := matRows_perm hP hσ hl
        refine ⟨some y', ?_, fun h => by simp at h, ?_, ?_⟩
        · unfold permLabels
          simp only [if_pos hl, h1]
          rfl
        · intro z hz hne
          obtain rfl := Option.some.inj hz
          exact absurd hl hne
        · intro z hz _
          obtain rfl := Option.some.inj hz
          exact ⟨y', rfl, by rw [h2, hl], h3⟩
      · refine ⟨some y, ?_, fun h => by simp at h, ?_, ?_⟩
        · unfold permLabels
          simp only [if_neg hl]
        · intro z hz _
          exact hz
        · intro z hz hl'
          obtain rfl := Option.some.inj hz
          exact absurd hl' hl
  obtain ⟨es, he, hnd, hmem⟩ : ∃ es, permEdges lib P graph.x.length graph.edges = .ok es ∧ es.Nodup ∧
      ∀ i j, (i, j) ∈ es ↔ i < graph.x.length ∧ j < graph.x.length ∧ (σ i, σ j) ∈ graph.edges := by
    unfold permEdges
    split
    · next hpos =>
      unfold csrOnes
      rw [if_pos (by
        rw [List.all_eq_true]
        intro e he
        simpa using hedges e he), ok_bind]
      rw [Mat.dot_eq (by exact hP.cols), ok_bind, Mat.dot_eq (by exact hP.cols.symm), ok_bind]
      refine ⟨_, rfl, hlib.nodup _, fun i j => ?_⟩
      rw [hlib.mem]
      simp only [Mat.transpose, hP.rows, hP.cols]
      refine and_congr_right fun hi => and_congr_right fun hj => ?_
      have hin : ∀ k, k < graph.x.length → ((List.range graph.x.length).map fun l =>
          P.entry i l * (graph.edges.count (l, k) : Int)).sum = graph.edges.count (σ i, k) := by
        intro k hk
        rw [sum_range_congr (g := fun l => if l = σ i then (graph.edges.count (σ i, k) : Int) else 0),
          sum_hot (hσ.lt i hi)]
        intro l hl
        rw [hP.entry i l hi hl]
        by_cases h : σ i = l
        · rw [if_pos h, if_pos h.symm, h, one_mul]
        · rw [if_neg h, if_neg (fun e => h e.symm), zero_mul]
      rw [sum_range_congr (g := fun k => if k = σ j then (graph.edges.count (σ i, σ j) : Int) else 0),
        sum_hot (hσ.lt j hj)]
      · rw [Ne, Int.natCast_eq_zero, List.count_eq_zero, not_not]
      · intro k hk
        rw [hin k hk, hP.entry j k hj hk]
        by_cases h : σ j = k
        · rw [if_pos h, if_pos h.symm, h, mul_one]
        · rw [if_neg h, if_neg (fun e => h e.symm), mul_zero]
    · next hpos =>
      have hnil : graph.edges = [] := List.length_eq_zero_iff.mp (by omega)
      rw [hnil]
      exact ⟨[], rfl, List.nodup_nil, by simp⟩
  refine ⟨⟨x', y', es, false⟩, ?_, hxl, hxv, hy1, hy2, hy3, hnd, hmem⟩
  unfold permuteGraph
  rw [hattr, Bool.not_false]
  show isValidPermutationMatrix P graph.x.length >>= _ = _
  rw [hvalid, ok_bind]
  show matRows P graph.x >>= _ = _
  rw [hx, ok_bind, hy, ok_bind, he, ok_bind]
  rfl

/-- **C51** For a graph without repeated edges the number of edges stays the same. -/
theorem C51_edge_count [AddCommGroup R] [AddCommGroup L] (lib : CooLib) (hlib : lib.Correct) (graph : PGraph R L)
    (P : Mat) (σ : Nat → Nat) (hattr : graph.hasEdgeAttr = false) (hσ : IsPermutation graph.x.length σ)
    (hP : MatrixOf P graph.x.length σ) (hid : 1 < graph.x.length → ∃ i, i < graph.x.length ∧ σ i ≠ i)
    (hedges : ∀ e ∈ graph.edges, e.1 < graph.x.length ∧ e.2 < graph.x.length) (hnd : graph.edges.Nodup)
    (out : PGraph R L) (hrun : permuteGraph lib graph P = .ok out) :
    (out.edges.map fun e => (σ e.1, σ e.2)).Perm graph.edges := by
  obtain ⟨out', h1, -, -, -, -, -, h2, h3⟩ := C51_permuted_graph lib hlib graph P σ hattr hσ hP hid hedges
  rw [hrun, ok_inj] at h1
  subst h1
  have hinj : (out.edges.map fun e => (σ e.1, σ e.2)).Nodup := by
    refine h2.map_on ?_
    rintro ⟨a, b⟩ ha ⟨c, d⟩ hc e
    obtain ⟨a1, a2, -⟩ := (h3 a b).mp ha
    obtain ⟨c1, c2, -⟩ := (h3 c d).mp hc
    rw [Prod.mk.injEq] at e ⊢
    exact ⟨hσ.inj a c a1 c1 e.1, hσ.inj b d a2 c2 e.2⟩
  rw [List.perm_ext_iff_of_nodup hinj hnd]
  rintro ⟨a, b⟩
  rw [List.mem_map]
  constructor
  · rintro ⟨⟨i, j⟩, hij, e⟩
    rw [← e]
    exact ((h3 i j).mp hij).2.2
  · intro hab
    obtain ⟨la, lb⟩ := hedges _ hab
    obtain ⟨i, hi, rfl⟩ := hσ.surj la
    obtain ⟨j, hj, rfl⟩ := hσ.surj lb
    exact ⟨(i, j), (h3 i j).mpr ⟨hi, hj, hab⟩, rfl⟩

/-- **C51** A graph with edge features is refused, and so is every matrix that is not valid. -/
theorem C51_refused [AddCommGroup R] [AddCommGroup L] (lib : CooLib) (graph : PGraph R L) (P : Mat) :
    (graph.hasEdgeAttr = true → permuteGraph lib graph P = .error .assertion) ∧
    (P.rows = graph.x.length → P.cols = graph.x.length → (¬ ∃ σ, IsPermutation graph.x.length σ ∧
      MatrixOf P graph.x.length σ ∧ (1 < graph.x.length → ∃ i, i < graph.x.length ∧ σ i ≠ i)) →
      permuteGraph lib graph P = .error .assertion) := by
  constructor
  · intro h
    unfold permuteGraph
    rw [h]
    rfl
  · intro hr hc hno
    unfold permuteGraph
    cases graph.hasEdgeAttr with
    | true => rfl
    | false =>
      obtain ⟨b, hb⟩ := C50_square_matrices P _ hr hc
      rw [← C50_valid_iff_permutation, hb, ok_inj, Bool.not_eq_true] at hno
      show isValidPermutationMatrix P graph.x.length >>= _ = _
      rw [hb, hno, ok_bind]
      rfl

theorem permuteGraph_inputs [AddCommGroup R] [AddCommGroup L] (lib : CooLib) (graph : PGraph R L) (P : Mat)
    (out : PGraph R L) (hrun : permuteGraph lib graph P = .ok out) :
    ∃ σ, IsPermutation graph.x.length σ ∧ MatrixOf P graph.x.length σ ∧
      (1 < graph.x.length → ∃ i, i < graph.x.length ∧ σ i ≠ i) ∧ graph.hasEdgeAttr = false := by
  unfold permuteGraph at hrun
  obtain ⟨u, ha, hrun⟩ := bind_eq_ok.mp hrun
  obtain ⟨b, hb, hrun⟩ := bind_eq_ok.mp hrun
  obtain ⟨u', hv, -⟩ := bind_eq_ok.mp hrun
  rw [pyAssert_eq_ok] at ha hv
  rw [Bool.not_eq_true'] at ha
  subst hv
  obtain ⟨σ, hσ, hP, hid⟩ := (C50_valid_iff_permutation P graph.x.length).mp hb
  exact ⟨σ, hσ, hP, hid, ha⟩

/-- **C51** The permuted graph is isomorphic to the graph. -/
theorem C51_isomorphic [AddCommGroup R] [AddCommGroup L] (lib : CooLib) (hlib : lib.Correct) (graph : PGraph R L)
    (P : Mat) (hedges : ∀ e ∈ graph.edges, e.1 < graph.x.length ∧ e.2 < graph.x.length) (out : PGraph R L)
    (hrun : permuteGraph lib graph P = .ok out) :
    FGraph.Iso ⟨out.x.length, out.x, out.edges, out.y⟩ ⟨graph.x.length, graph.x, graph.edges, graph.y⟩ := by
  obtain ⟨σ, hσ, hP, hid, ha⟩ := permuteGraph_inputs lib graph P out hrun
  obtain ⟨out', h1, hl, hx, -, -, -, -, h3⟩ := C51_permuted_graph lib hlib graph P σ ha hσ hP hid hedges
  rw [hrun, ok_inj] at h1
  subst h1
  refine ⟨hl.symm, σ, ?_⟩
  refine ⟨fun v hv => ?_, fun u v hu hv => ?_, fun u v hu hv => ?_, fun v hv => ?_⟩
  · rw [hl] at hv ⊢
    exact hσ.lt v hv
  · rw [hl] at hu hv
    exact hσ.inj u v hu hv
  · rw [hl] at hu hv
    have hne : σ u ≠ σ v ↔ u ≠ v := not_congr ⟨hσ.inj u v hu hv, fun e => by rw [e]⟩
    simp only [Joined, h3, hu, hv, true_and, hne]
  · rw [hl] at hv
    exact (hx v hv).symm

/-- The graph as the lifting sees it. -/
def PGraph.toF (graph : PGraph R L) : FGraph R L := ⟨graph.x.length, graph.x, graph.edges, graph.y⟩

variable {𝕜 : Type} [Field 𝕜] [AddCommGroup R] [Module 𝕜 R]

/-- **C51** A batch of graphs and the batch of their permuted copies, lifted to clique complexes, get the same
predictions from SparseCIN, CIN++ and CIN. -/
theorem C51_same_prediction [AddCommGroup L] (lib : CooLib) (hlib : lib.Correct) (g : Gudhi) (hg : g.Ok)
    (agg : List R → R) (hagg : ∀ l l' : List R, l.Perm l' → agg l = agg l') (k : Nat) (down : Bool)
    (sparse : SparseNet R (SparseLevel 𝕜 R)) (hs : sparse.Fits)
    (pp : SparseNet R (PPLevel 𝕜 R)) (hp : pp.Fits) (cin : CINNet R (CINLevel 𝕜 R)) (hc : cin.Fits)
    (Ps : List Mat) (Gs Hs : List (PGraph R L)) (hne : Gs ≠ []) (hG : ∀ G ∈ Gs, G.toF.Ok)
    (hlen : Gs.length = Ps.length)
    (hrun : mapE (fun p => permuteGraph lib p.1 p.2) (Gs.zip Ps) = .ok Hs) (mB : Nat) :
    ∃ cs cs', mapE (FGraph.lift g agg k down) (Gs.map PGraph.toF) = .ok cs ∧
      mapE (FGraph.lift g agg k down) (Hs.map PGraph.toF) = .ok cs' ∧
      (∃ preds, (fromComplexList cs mB >>= sparse.forward 𝕜 SparseLevel.forward) = .ok preds ∧
        (fromComplexList cs' mB >>= sparse.forward 𝕜 SparseLevel.forward) = .ok preds) ∧
      (∃ preds, (fromComplexList cs mB >>= pp.forward 𝕜 PPLevel.forward) = .ok preds ∧
        (fromComplexList cs' mB >>= pp.forward 𝕜 PPLevel.forward) = .ok preds) ∧
      (∃ preds, (fromComplexList cs mB >>= cin.forward 𝕜 CINLevel.forward) = .ok preds ∧
        (fromComplexList cs' mB >>= cin.forward 𝕜 CINLevel.forward) = .ok preds) := by
  have key : ∀ (G : PGraph R L) (P : Mat) (H : PGraph R L), G.toF.Ok → permuteGraph lib G P = .ok H →
      H.toF.Ok ∧ FGraph.Iso H.toF G.toF := by
    intro G P H hok hr
    have hin : ∀ e ∈ G.edges, e.1 < G.x.length ∧ e.2 < G.x.length := hok.edges
    refine ⟨?_, C51_isomorphic lib hlib G P hin H hr⟩
    obtain ⟨σ, hσ, hP, hid, ha⟩ := permuteGraph_inputs lib G P H hr
    obtain ⟨H', h1, hl, hx, hy1, hy2, hy3, -, h3⟩ := C51_permuted_graph lib hlib G P σ ha hσ hP hid hin
    rw [hr, ok_inj] at h1
    subst h1
    refine ⟨by show 0 < H.x.length; rw [hl]; exact hok.pos, rfl, ?_, ?_⟩
    · rintro ⟨i, j⟩ he
      obtain ⟨a, b, -⟩ := (h3 i j).mp he
      show i < H.x.length ∧ j < H.x.length
      rw [hl]
      exact ⟨a, b⟩
    · intro l hlab
      have hlab : H.y = some l := hlab
      show l.length = 1 ∨ l.length = H.x.length
      rw [hl]
      cases hy : G.y with
      | none => rw [hy1 hy] at hlab; cases hlab
      | some y =>
        have hyl := hok.labels y hy
        by_cases h : y.length = G.x.length
        · obtain ⟨y', e, el, -⟩ := hy3 y hy h
          rw [hlab] at e
          obtain rfl := Option.some.inj e
          right
          rw [el, h]
        · rw [hy2 y hy h] at hlab
          obtain rfl := Option.some.inj hlab
          exact hyl
  have hall : (∀ H ∈ Hs.map PGraph.toF, H.Ok) ∧
      List.Forall₂ FGraph.Iso (Hs.map PGraph.toF) (Gs.map PGraph.toF) := by
    clear hne
    induction Gs generalizing Ps Hs with
    | nil =>
      rw [List.zip_nil_left, mapE_nil, ok_inj] at hrun
      subst hrun
      exact ⟨by simp, .nil⟩
    | cons G Gs ih =>
      cases Ps with
      | nil => simp at hlen
      | cons P Ps =>
        rw [List.zip_cons_cons, mapE_cons] at hrun
        obtain ⟨H, hH, hrun⟩ := bind_eq_ok.mp hrun
        obtain ⟨Hs', hHs, hrun⟩ := bind_eq_ok.mp hrun
        rw [ok_inj] at hrun
        subst hrun
        obtain ⟨i1, i2⟩ := ih Ps Hs' (fun G' h' => hG G' (by simp [h'])) (by simpa using hlen) hHs
        obtain ⟨k1, k2⟩ := key G P H (hG G (by simp)) hH
        refine ⟨?_, .cons k2 i2⟩
        intro F hF
        rcases List.mem_cons.mp hF with rfl | hF'
        · exact k1
        · exact i1 F hF'
  have hne' : Hs.map PGraph.toF ≠ [] := by
    intro h
    have := hall.2.length_eq
    rw [h] at this
    have : Gs.length = 0 := by simpa using this.symm
    exact hne (List.length_eq_zero_iff.mp this)
  obtain ⟨cs, cs', h1, h2, ⟨p1, a1, b1⟩, ⟨p2, a2, b2⟩, p3, a3, b3⟩ :=
    C34_isomorphic_graphs_same_prediction (𝕜 := 𝕜) g g hg hg agg hagg k down sparse hs pp hp cin hc _ _ hne' hall.1
      (fun G hG' => by obtain ⟨G', hm, rfl⟩ := List.mem_map.mp hG'; exact hG G' hm) hall.2 mB
  exact ⟨cs', cs, h2, h1, ⟨p1, b1, a1⟩, ⟨p2, b2, a2⟩, p3, b3, a3⟩

/-! ### Examples -/

namespace Fixtures

/-- Entries stored row by row. -/
def rowMajor : CooLib where
  stored M := (List.range M.rows).flatMap fun i =>
    ((List.range M.cols).filter fun j => decide (M.entry i j ≠ 0)).map fun j => (i, j)

/-- The rotation of three nodes. -/
def rotation : Mat := ⟨3, 3, fun i j => if (i + 1) % 3 = j then 1 else 0⟩

def pathGraph : PGraph ℚ ℚ := ⟨[5, 6, 7], some [1, 2, 3], [(0, 1), (1, 0), (1, 2), (2, 1)], false⟩

end Fixtures

open Fixtures

/-- The recorded contract of `tocoo` can be met. -/
theorem rowMajor_correct : rowMajor.Correct := by
  constructor
  · intro M
    unfold rowMajor
    rw [List.nodup_flatMap]
    refine ⟨fun i _ => ?_, ?_⟩
    · exact (List.nodup_range.filter _).map fun a b e => (Prod.mk.inj e).2
    · refine List.nodup_range.imp_of_mem ?_
      intro a b _ _ hab p h1 h2
      obtain ⟨x, -, rfl⟩ := List.mem_map.mp h1
      obtain ⟨y, -, e⟩ := List.mem_map.mp h2
      exact hab (Prod.mk.inj e).1.symm
  · intro M i j
    unfold rowMajor
    simp only [List.mem_flatMap, List.mem_range, List.mem_map, List.mem_filter, decide_eq_true_eq, Prod.mk.injEq]
    constructor
    · rintro ⟨a, h1, b, ⟨h2, h3⟩, rfl, rfl⟩
      exact ⟨h1, h2, h3⟩
    · rintro ⟨h1, h2, h3⟩
      exact ⟨i, h1, j, ⟨h2, h3⟩, rfl, rfl⟩

/-- The rotation is valid; the identity, a matrix with a two and a matrix with a repeated row are not. -/
example : isValidPermutationMatrix rotation 3 = .ok true ∧
    isValidPermutationMatrix (eyeRows [0, 1, 2] 3) 3 = .ok false ∧
    isValidPermutationMatrix ⟨2, 2, fun i j => if i = j then 0 else 2⟩ 2 = .ok false ∧
    isValidPermutationMatrix (eyeRows [1, 1] 2) 2 = .ok false ∧
    isValidPermutationMatrix (eyeRows [0] 1) 1 = .ok true := by
  decide +kernel

/-- Of four draws the identity and the last one are not used. -/
example : (generatePermutationMatrices 3 2 [[1, 0, 2], [0, 1, 2], [2, 0, 1], [1, 2, 0]] []).map
    (Option.map fun Ps => Ps.map Mat.rowLists) =
      .ok (some [[[0, 1, 0], [1, 0, 0], [0, 0, 1]], [[0, 0, 1], [1, 0, 0], [0, 1, 0]]]) := by
  decide +kernel

/-- A path with node labels, rotated. -/
example : (permuteGraph rowMajor pathGraph rotation).map (fun g => (g.x, g.y, g.edges)) =
    .ok ([6, 7, 5], some [2, 3, 1], [(0, 1), (0, 2), (1, 0), (2, 0)]) := by
  decide +kernel

/-- It meets the hypotheses of the theorems. -/
example : IsPermutation 3 (fun i => (i + 1) % 3) ∧ MatrixOf rotation 3 (fun i => (i + 1) % 3) ∧
    (∀ e ∈ pathGraph.edges, e.1 < pathGraph.x.length ∧ e.2 < pathGraph.x.length) ∧ pathGraph.edges.Nodup ∧
    pathGraph.toF.Ok :=
  ⟨⟨by decide, fun i j hi hj => by
      have h : ∀ i < 3, ∀ j < 3, (i + 1) % 3 = (j + 1) % 3 → i = j := by decide
      exact h i hi j hj⟩, ⟨rfl, rfl, fun i j _ _ => rfl⟩, by decide, by decide,
    ⟨by decide, rfl, by unfold EdgesIn; decide, fun l h => by
      have : l = [1, 2, 3] := (Option.some.inj h).symm
      subst this
      right
      rfl⟩⟩

end Verif
