import Verif.Lemmas.ComplexBatch
import Verif.Fixtures

/-!
# Batching of complexes: properties C01, C02, C04, C05, C06
-/

namespace Verif

variable {F L : Type}

/-- **C01** Adjacencies of a batch of complexes: in every dimension `d` of the batch, item `i`'s
columns shifted by the number of `d`-cells of the complexes before it. Features, labels, masks and
orientations are concatenated unchanged. -/
theorem C01_complex_batch_adjacency (cs : List (Complex F L)) (maxDim : Nat) (B : Complex F L)
    (h : fromComplexList cs maxDim = .ok B) (d : Nat) (b : Cochain F L)
    (hb : B.cochains[d]? = some b) :
    b.upperIndex = unionOf (·.attr d Cochain.upperIndex) (fun i p =>
      (p.1 + before (Complex.cellsIn d) cs i, p.2 + before (Complex.cellsIn d) cs i)) cs ∧
    b.lowerIndex = unionOf (·.attr d Cochain.lowerIndex) (fun i p =>
      (p.1 + before (Complex.cellsIn d) cs i, p.2 + before (Complex.cellsIn d) cs i)) cs ∧
    b.x = unionOf (·.attr d Cochain.x) (fun _ r => r) cs ∧
    b.y = unionOf (·.attr d Cochain.y) (fun _ r => r) cs ∧
    b.upperOrient = unionOf (·.attr d Cochain.upperOrient) (fun _ r => r) cs ∧
    b.lowerOrient = unionOf (·.attr d Cochain.lowerOrient) (fun _ r => r) cs ∧
    b.mask = unionOf (·.attr d Cochain.mask) (fun _ r => r) cs := by
  obtain ⟨b0, u, l, h0, rfl⟩ := (fromComplexList_inv h).cochain d b hb
  have f := fromCochainList_inv h0
  have hbef : ∀ i, before Cochain.count (cs.map (orEmpty d)) i = before (Complex.cellsIn d) cs i := by
    intro i
    rw [before_map]
    exact before_congr (fun c _ => count_orEmpty d c) i
  refine ⟨?_, ?_, ?_, ?_, ?_, ?_, ?_⟩
  · rw [show b0.upperIndex = _ from f.upper, unionOf_map]
    exact unionOf_congr (fun c _ => attr_orEmpty d c _ fun _ => rfl)
      (fun i a => by rw [hbef]; rfl)
  · rw [show b0.lowerIndex = _ from f.lower, unionOf_map]
    exact unionOf_congr (fun c _ => attr_orEmpty d c _ fun _ => rfl)
      (fun i a => by rw [hbef]; rfl)
  · rw [show b0.x = _ from f.x, unionOf_map]
    exact unionOf_congr (fun c _ => attr_orEmpty d c _ fun _ => rfl) (fun _ _ => rfl)
  · rw [show b0.y = _ from f.y, unionOf_map]
    exact unionOf_congr (fun c _ => attr_orEmpty d c _ fun _ => rfl) (fun _ _ => rfl)
  · rw [show b0.upperOrient = _ from f.upperOrient, unionOf_map]
    exact unionOf_congr (fun c _ => attr_orEmpty d c _ fun _ => rfl) (fun _ _ => rfl)
  · rw [show b0.lowerOrient = _ from f.lowerOrient, unionOf_map]
    exact unionOf_congr (fun c _ => attr_orEmpty d c _ fun _ => rfl) (fun _ _ => rfl)
  · rw [show b0.mask = _ from f.mask, unionOf_map]
    exact unionOf_congr (fun c _ => attr_orEmpty d c _ fun _ => rfl) (fun _ _ => rfl)

/-- Three complexes of dimensions 0, 2 and 1: the vertex adjacencies of the second and third are
shifted by 2 and 7. -/
example : (fromComplexList [Fixtures.dots, Fixtures.house, Fixtures.seg] 2).map
      (fun B => B.cochains.map Cochain.upperIndex) =
    .ok [some [(2, 3), (3, 2), (2, 5), (5, 2), (3, 4), (4, 3), (4, 5), (5, 4), (4, 6), (6, 4), (5, 6),
      (6, 5), (7, 8), (8, 7)], some [(2, 4), (4, 2), (2, 5), (5, 2), (4, 5), (5, 4)], none] := by
  decide

/-- **C02** Incidences and shared ids of a batch of complexes are shifted by the running count of
the dimension the values live in. The complexes are as the constructor leaves them (`C08`), and the
top dimension of each reports no cells above it. -/
theorem C02_complex_batch_incidence (cs : List (Complex F L)) (maxDim : Nat) (B : Complex F L)
    (h : fromComplexList cs maxDim = .ok B) (hco : ∀ comp ∈ cs, comp.Coherent)
    (d : Nat) (b : Cochain F L) (hb : B.cochains[d]? = some b) :
    b.boundaryIndex = unionOf (·.attr d Cochain.boundaryIndex) (fun i p =>
      (p.1 + before (Complex.cellsBelow d) cs i, p.2 + before (Complex.cellsIn d) cs i)) cs ∧
    b.sharedBoundaries = unionOf (·.attr d Cochain.sharedBoundaries) (fun i s =>
      s + before (Complex.cellsBelow d) cs i) cs ∧
    ((∀ comp ∈ cs, ∀ c, comp.cochains[comp.dimension]? = some c → c.countUp = 0) →
      b.sharedCoboundaries = unionOf (·.attr d Cochain.sharedCoboundaries) (fun i s =>
        s + before (Complex.cellsIn (d + 1)) cs i) cs) := by
  obtain ⟨b0, u, l, h0, rfl⟩ := (fromComplexList_inv h).cochain d b hb
  have f := fromCochainList_inv h0
  have hbef : ∀ i, before Cochain.count (cs.map (orEmpty d)) i = before (Complex.cellsIn d) cs i := by
    intro i
    rw [before_map]
    exact before_congr (fun c _ => count_orEmpty d c) i
  have hbefd : ∀ i, before Cochain.countDown (cs.map (orEmpty d)) i =
      before (Complex.cellsBelow d) cs i := by
    intro i
    rw [before_map]
    exact before_congr (fun c hc => countDown_orEmpty d c (hco c hc)) i
  refine ⟨?_, ?_, ?_⟩
  · rw [show b0.boundaryIndex = _ from f.boundary, unionOf_map]
    exact unionOf_congr (fun c _ => attr_orEmpty d c _ fun _ => rfl)
      (fun i a => by rw [hbef, hbefd]; rfl)
  · rw [show b0.sharedBoundaries = _ from f.sb, unionOf_map]
    exact unionOf_congr (fun c _ => attr_orEmpty d c _ fun _ => rfl)
      (fun i a => by rw [hbefd])
  · intro htop
    rw [show b0.sharedCoboundaries = _ from f.sc, unionOf_map]
    refine unionOf_congr (fun c _ => attr_orEmpty d c _ fun _ => rfl) (fun i a => ?_)
    rw [before_map, before_congr (fun c hc => countUp_orEmpty d c (hco c hc) (htop c hc)) i]

/-- The segment's edge is edge 6 of the batch; its ends are vertices 7 and 8. -/
example : (fromComplexList [Fixtures.dots, Fixtures.house, Fixtures.seg] 2).map
      (fun B => (B.cochains.map fun c => (c.sharedCoboundaries.getD []).drop 10,
        B.cochains.map fun c => (c.boundaryIndex.getD []).drop 11)) =
    .ok ([[4, 4, 6, 6], [], []], [[], [(6, 5), (7, 6), (8, 6)], []]) := by
  decide

/-- **C02** Without the condition on the top dimension the shared ids go wrong: a complex that was
truncated by `dimension=` keeps the ids of the removed dimension, and they are counted. Here the
house truncated to its 1-skeleton comes before the house: the shared triangle of the second house is
numbered 1, but the batch only has triangle 0. -/
theorem C02_truncated_complex_counterexample :
    ∃ (skel B : Complex Nat Nat) (b t : Cochain Nat Nat),
      Complex.new [Fixtures.houseV, Fixtures.houseE, Fixtures.houseT] none (some 1) = .ok skel ∧
      fromComplexList [skel, Fixtures.house] 2 = .ok B ∧
      B.cochains[1]? = some b ∧ B.cochains[2]? = some t ∧ t.numCells = .ok (some 1) ∧
      b.sharedCoboundaries = some [0, 0, 0, 0, 0, 0, 1, 1, 1, 1, 1, 1] := by
  refine ⟨_, _, _, _, rfl, rfl, rfl, rfl, ?_, ?_⟩ <;> decide

/-- The batch vector of the cells of dimension `d` of a batch of valid complexes. -/
theorem batch_vector {cs : List (Complex F L)} {maxDim : Nat} {B : Complex F L}
    (h : fromComplexList cs maxDim = .ok B) {d : Nat} {b : Cochain F L}
    (hb : B.cochains[d]? = some b) {i k : Nat} {comp : Complex F L}
    (hi : cs[i]? = some comp) (hk : k < comp.cellsIn d) :
    ∃ vec, b.batch = some vec ∧ vec[k + before (Complex.cellsIn d) cs i]? = some i := by
  obtain ⟨b0, u, l, h0, rfl⟩ := (fromComplexList_inv h).cochain d b hb
  have f := fromCochainList_inv h0
  obtain ⟨r, hr, hb', -⟩ := f.segs
  have hfl := batchLoop_flatten hr
  have hil : i < cs.length := (List.getElem?_eq_some_iff.mp hi).1
  have hpos : (r.1.flatten)[k + before (Complex.cellsIn d) cs i]? = some i := by
    rw [hfl, getElem?_replicates]
    rw [before_map, before_map, before_congr (fun c _ => count_orEmpty d c),
      before_congr (fun c _ => count_orEmpty d c)]
    refine ⟨by omega, by simpa using hil, ?_, ?_⟩
    · simp
    · have := before_succ_getElem (Complex.cellsIn d) cs hi
      simp only [Nat.sub_zero]
      omega
  refine ⟨r.1.flatten, ?_, hpos⟩
  show b0.batch = _
  rw [hb', if_neg]
  intro hemp
  rw [List.isEmpty_iff] at hemp
  simp [hemp] at hpos

theorem before_lt_total {C : Type} {f : C → Nat} {cs : List C} {i k : Nat} {c : C}
    (hi : cs[i]? = some c) (hk : k < f c) : k + before f cs i < (cs.map f).sum := by
  have h1 := before_succ_getElem f cs hi
  have hil : i < cs.length := (List.getElem?_eq_some_iff.mp hi).1
  have h2 := before_le f cs (show i + 1 ≤ cs.length by omega)
  rw [before_full f cs (le_refl _)] at h2
  omega

theorem mem_union {C A : Type} {get : C → Option (List A)} {place : Nat → A → A} {cs : List C}
    {a : A} (h : a ∈ (unionOf get place cs).getD []) :
    ∃ i c a0, cs[i]? = some c ∧ a0 ∈ (get c).getD [] ∧ a = place i a0 := by
  rw [unionOf_getD] at h
  simp only [List.mem_flatMap, Prod.exists, List.mem_map] at h
  obtain ⟨c, i, hci, a0, ha0, rfl⟩ := h
  rw [List.mk_mem_zipIdx_iff_getElem?] at hci
  exact ⟨i, c, a0, hci, ha0, rfl⟩

theorem attr_mem {A : Type} {comp : Complex F L} {d : Nat} {get : Cochain F L → Option (List A)}
    {a : A} (h : a ∈ (comp.attr d get).getD []) :
    ∃ c, comp.cochains[d]? = some c ∧ a ∈ (get c).getD [] := by
  unfold Complex.attr at h
  cases hc : comp.cochains[d]? with
  | none => rw [hc] at h; simp at h
  | some c => rw [hc] at h; exact ⟨c, rfl, h⟩

/-- **C04** Both ends of every adjacency column of a batch of valid complexes belong to the same
complex, according to the batch vector of that dimension (and so are in range). -/
theorem C04_adjacency_within_one_complex (cs : List (Complex F L)) (maxDim : Nat) (B : Complex F L)
    (h : fromComplexList cs maxDim = .ok B) (hv : ∀ comp ∈ cs, comp.Valid)
    (d : Nat) (b : Cochain F L) (hb : B.cochains[d]? = some b) (p : Nat × Nat)
    (hp : p ∈ b.upperIndex.getD [] ∨ p ∈ b.lowerIndex.getD []) :
    p.1 < (cs.map (Complex.cellsIn d)).sum ∧ p.2 < (cs.map (Complex.cellsIn d)).sum ∧
    ∃ vec i, b.batch = some vec ∧ vec[p.1]? = some i ∧ vec[p.2]? = some i := by
  obtain ⟨hu, hl, -⟩ := C01_complex_batch_adjacency cs maxDim B h d b hb
  obtain ⟨i, comp, q, hi, hq, rfl⟩ : ∃ (i : Nat) (comp : Complex F L) (q : Nat × Nat), cs[i]? = some comp ∧
      (q.1 < comp.cellsIn d ∧ q.2 < comp.cellsIn d) ∧
      p = (q.1 + before (Complex.cellsIn d) cs i, q.2 + before (Complex.cellsIn d) cs i) := by
    rcases hp with hp | hp
    · rw [hu] at hp
      obtain ⟨i, comp, q, hi, hq, rfl⟩ := mem_union hp
      obtain ⟨c, hc, hq⟩ := attr_mem hq
      exact ⟨i, comp, q, hi, ((hv comp (List.mem_of_getElem? hi)).valid d c hc).upper q hq, rfl⟩
    · rw [hl] at hp
      obtain ⟨i, comp, q, hi, hq, rfl⟩ := mem_union hp
      obtain ⟨c, hc, hq⟩ := attr_mem hq
      exact ⟨i, comp, q, hi, ((hv comp (List.mem_of_getElem? hi)).valid d c hc).lower q hq, rfl⟩
  refine ⟨before_lt_total hi hq.1, before_lt_total hi hq.2, ?_⟩
  obtain ⟨v1, h1, h1'⟩ := batch_vector h hb hi hq.1
  obtain ⟨v2, h2, h2'⟩ := batch_vector h hb hi hq.2
  rw [h1] at h2; cases h2
  exact ⟨v1, i, h1, h1', h2'⟩

/-- The adjacency from 4 to 5 in a batch, and the complexes its ends belong to. -/
example : (fromComplexList [Fixtures.dots, Fixtures.house, Fixtures.seg] 2).toOption.map
      (fun B => B.cochains.map fun b => ((b.upperIndex.getD [])[6]?, b.batch.bind (·[4]?), b.batch.bind (·[5]?))) =
    some [(some (4, 5), some 1, some 1), (none, some 1, some 1), (none, none, none)] := by decide

/-- **C04** An incidence column of the batch joins a cell and a boundary cell of the same complex,
according to the batch vectors of the two dimensions; there are none on the vertices. -/
theorem C04_incidence_within_one_complex (cs : List (Complex F L)) (maxDim : Nat) (B : Complex F L)
    (h : fromComplexList cs maxDim = .ok B) (hv : ∀ comp ∈ cs, comp.Valid)
    (d : Nat) (b : Cochain F L) (hb : B.cochains[d]? = some b) (p : Nat × Nat)
    (hp : p ∈ b.boundaryIndex.getD []) :
    ∃ e b' vec vec' i, d = e + 1 ∧ B.cochains[e]? = some b' ∧ b.batch = some vec ∧
      b'.batch = some vec' ∧ vec[p.2]? = some i ∧ vec'[p.1]? = some i := by
  have hbi := (C02_complex_batch_incidence cs maxDim B h (fun c hc => (hv c hc).toCoherent) d b hb).1
  rw [hbi] at hp
  obtain ⟨i, comp, q, hi, hq, rfl⟩ := mem_union hp
  obtain ⟨c, hc, hq⟩ := attr_mem hq
  have hq := ((hv comp (List.mem_of_getElem? hi)).valid d c hc).boundary q hq
  cases d with
  | zero => exact absurd hq.1 (Nat.not_lt_zero _)
  | succ e =>
    have hlt : e < B.cochains.length := by
      have := (List.getElem?_eq_some_iff.mp hb).1; omega
    have hb' := List.getElem?_eq_getElem hlt
    obtain ⟨v1, h1, h1'⟩ := batch_vector h hb hi hq.2
    obtain ⟨v2, h2, h2'⟩ := batch_vector h hb' hi hq.1
    exact ⟨e, _, v1, v2, i, rfl, hb', h1, h2, h1', h2'⟩

/-- The edge of the segment and its second end belong to the third complex. -/
example : (fromComplexList [Fixtures.dots, Fixtures.house, Fixtures.seg] 2).toOption.map
      (fun B => B.cochains.map fun b => ((b.boundaryIndex.getD [])[13]?, b.batch.bind (·[6]?), b.batch.bind (·[8]?))) =
    some [(none, some 1, some 2), (some (8, 6), some 2, none), (none, none, none)] := by decide

/-- **C04** The shared cell of every upper adjacency column of the batch belongs to the complex of
the column's ends, and likewise for lower adjacency: the `k`-th shared id goes with the `k`-th
column. -/
theorem C04_shared_within_one_complex (cs : List (Complex F L)) (maxDim : Nat) (B : Complex F L)
    (h : fromComplexList cs maxDim = .ok B) (hv : ∀ comp ∈ cs, comp.Valid)
    (d : Nat) (b : Cochain F L) (hb : B.cochains[d]? = some b) :
    (b.sharedCoboundaries.getD []).length = (b.upperIndex.getD []).length ∧
    (b.sharedBoundaries.getD []).length = (b.lowerIndex.getD []).length ∧
    (∀ ps ∈ (b.upperIndex.getD []).zip (b.sharedCoboundaries.getD []), ∃ vec i,
      b.batch = some vec ∧ vec[ps.1.1]? = some i ∧
      ps.2 < (cs.map (Complex.cellsIn (d + 1))).sum ∧
      ∀ b', B.cochains[d + 1]? = some b' → ∃ vec', b'.batch = some vec' ∧ vec'[ps.2]? = some i) ∧
    (∀ ps ∈ (b.lowerIndex.getD []).zip (b.sharedBoundaries.getD []), ∃ e b' vec vec' i,
      d = e + 1 ∧ B.cochains[e]? = some b' ∧ b.batch = some vec ∧ b'.batch = some vec' ∧
      vec[ps.1.1]? = some i ∧ vec'[ps.2]? = some i) := by
  obtain ⟨hu, hl, -⟩ := C01_complex_batch_adjacency cs maxDim B h d b hb
  obtain ⟨-, hsb, hsc⟩ :=
    C02_complex_batch_incidence cs maxDim B h (fun c hc => (hv c hc).toCoherent) d b hb
  have hsc := hsc fun c hc => (hv c hc).topEmpty
  have hlenU : ∀ comp ∈ cs, ((comp.attr d Cochain.upperIndex).getD []).length =
      ((comp.attr d Cochain.sharedCoboundaries).getD []).length := by
    intro comp hcomp
    unfold Complex.attr
    cases hc : comp.cochains[d]? with
    | none => rfl
    | some c => exact ((hv comp hcomp).valid d c hc).upperShared.symm
  have hlenL : ∀ comp ∈ cs, ((comp.attr d Cochain.lowerIndex).getD []).length =
      ((comp.attr d Cochain.sharedBoundaries).getD []).length := by
    intro comp hcomp
    unfold Complex.attr
    cases hc : comp.cochains[d]? with
    | none => rfl
    | some c => exact ((hv comp hcomp).valid d c hc).lowerShared.symm
  have hmem : ∀ {ci : Complex F L × Nat}, ci ∈ cs.zipIdx → ci.1 ∈ cs := by
    rintro ⟨c, i⟩ hci
    rw [List.mk_mem_zipIdx_iff_getElem?] at hci
    exact List.mem_of_getElem? hci
  rw [hu, hl, hsb, hsc]
  simp only [unionOf_getD]
  refine ⟨?_, ?_, ?_, ?_⟩
  · simp only [List.length_flatMap, List.length_map]
    congr 1
    exact List.map_congr_left fun ci hci => (hlenU ci.1 (hmem hci)).symm
  · simp only [List.length_flatMap, List.length_map]
    congr 1
    exact List.map_congr_left fun ci hci => (hlenL ci.1 (hmem hci)).symm
  · rintro ps hps
    rw [zip_flatMap_blocks _ _ _ (fun ci hci => by simpa using hlenU ci.1 (hmem hci))] at hps
    simp only [List.mem_flatMap, Prod.exists] at hps
    obtain ⟨comp, i, hi, hps⟩ := hps
    rw [List.mk_mem_zipIdx_iff_getElem?] at hi
    rw [List.zip_map, List.mem_map] at hps
    obtain ⟨⟨q, s⟩, hqs, rfl⟩ := hps
    have hq := List.of_mem_zip hqs
    obtain ⟨c, hc, hq1⟩ := attr_mem hq.1
    obtain ⟨c', hc', hs1⟩ := attr_mem hq.2
    rw [hc] at hc'; cases hc'
    have vc := (hv comp (List.mem_of_getElem? hi)).valid d c hc
    obtain ⟨v1, h1, h1'⟩ := batch_vector h hb hi (vc.upper q hq1).1
    refine ⟨v1, i, h1, h1', before_lt_total hi (vc.shared s hs1), ?_⟩
    intro b' hb'
    exact batch_vector h hb' hi (vc.shared s hs1)
  · rintro ps hps
    rw [zip_flatMap_blocks _ _ _ (fun ci hci => by simpa using hlenL ci.1 (hmem hci))] at hps
    simp only [List.mem_flatMap, Prod.exists] at hps
    obtain ⟨comp, i, hi, hps⟩ := hps
    rw [List.mk_mem_zipIdx_iff_getElem?] at hi
    rw [List.zip_map, List.mem_map] at hps
    obtain ⟨⟨q, s⟩, hqs, rfl⟩ := hps
    have hq := List.of_mem_zip hqs
    obtain ⟨c, hc, hq1⟩ := attr_mem hq.1
    obtain ⟨c', hc', hs1⟩ := attr_mem hq.2
    rw [hc] at hc'; cases hc'
    have vc := (hv comp (List.mem_of_getElem? hi)).valid d c hc
    have hs2 := vc.sharedDown s hs1
    cases d with
    | zero => exact absurd hs2 (Nat.not_lt_zero _)
    | succ e =>
      have hlt : e < B.cochains.length := by
        have := (List.getElem?_eq_some_iff.mp hb).1; omega
      have hb' := List.getElem?_eq_getElem hlt
      obtain ⟨v1, h1, h1'⟩ := batch_vector h hb hi (vc.lower q hq1).1
      obtain ⟨v2, h2, h2'⟩ := batch_vector h hb' hi hs2
      exact ⟨e, _, v1, v2, i, rfl, hb', h1, h2, h1', h2'⟩

/-- The hypotheses hold of the house, the segment and the isolated vertices. -/
example : ∀ comp ∈ [Fixtures.dots, Fixtures.house, Fixtures.seg], comp.Valid := by
  intro comp h
  simp only [List.mem_cons, List.not_mem_nil, or_false] at h
  rcases h with rfl | rfl | rfl <;> exact validB_sound (by decide)

end Verif
