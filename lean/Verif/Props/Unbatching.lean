import Verif.Props.ComplexBatching

/-!
# A batch determines its items, and its labels, dimension and size: properties C05, C06

`inSeg (cellsIn d) cs i k` (Spec/Batch) says that position `k` lies between the `i`-th and
the `i+1`-st running count of `d`-cells.
-/

namespace Verif

variable {F L : Type}

/-- **C05** From the batch and the counts, complex `i`'s upper adjacency columns with their shared
ids are recovered, in order: keep the columns whose first end lies in segment `i`, and subtract the
running counts. -/
theorem C05_recover_upper (cs : List (Complex F L)) (maxDim : Nat) (B : Complex F L)
    (h : fromComplexList cs maxDim = .ok B) (hv : ∀ comp ∈ cs, comp.Valid)
    (d : Nat) (b : Cochain F L) (hb : B.cochains[d]? = some b) (i : Nat) (comp : Complex F L)
    (hi : cs[i]? = some comp) :
    ((comp.attr d Cochain.upperIndex).getD []).zip ((comp.attr d Cochain.sharedCoboundaries).getD [])
    = (((b.upperIndex.getD []).zip (b.sharedCoboundaries.getD [])).filter
        (fun ps => inSeg (Complex.cellsIn d) cs i ps.1.1)).map
      (fun ps => ((ps.1.1 - before (Complex.cellsIn d) cs i, ps.1.2 - before (Complex.cellsIn d) cs i),
        ps.2 - before (Complex.cellsIn (d + 1)) cs i)) := by
  obtain ⟨hu, -⟩ := C01_complex_batch_adjacency cs maxDim B h d b hb
  obtain ⟨-, -, hsc⟩ :=
    C02_complex_batch_incidence cs maxDim B h (fun c hc => (hv c hc).toCoherent) d b hb
  have hsc := hsc fun c hc => (hv c hc).topEmpty
  have hlenU : ∀ comp ∈ cs, ((comp.attr d Cochain.upperIndex).getD []).length =
      ((comp.attr d Cochain.sharedCoboundaries).getD []).length := by
    intro comp hcomp
    unfold Complex.attr
    cases hc : comp.cochains[d]? with
    | none => rfl
    | some c => exact ((hv comp hcomp).valid d c hc).upperShared.symm
  have hmem : ∀ {ci : Complex F L × Nat}, ci ∈ cs.zipIdx → ci.1 ∈ cs := by
    rintro ⟨c, i⟩ hci
    rw [List.mk_mem_zipIdx_iff_getElem?] at hci
    exact List.mem_of_getElem? hci
  have hil : i < cs.length := (List.getElem?_eq_some_iff.mp hi).1
  rw [hu, hsc]
  simp only [unionOf_getD]
  rw [zip_flatMap_blocks _ _ _ (fun ci hci => by simpa using hlenU ci.1 (hmem hci))]
  simp only [List.zip_map]
  rw [filter_blocks (s := 0) (f := fun c j => (((c.attr d Cochain.upperIndex).getD []).zip
      ((c.attr d Cochain.sharedCoboundaries).getD [])).map (Prod.map
        (fun p => (p.1 + before (Complex.cellsIn d) cs j, p.2 + before (Complex.cellsIn d) cs j))
        (fun s => s + before (Complex.cellsIn (d + 1)) cs j))) hi]
  · rw [List.map_map, Nat.zero_add]
    conv_lhs => rw [← List.map_id (((comp.attr d Cochain.upperIndex).getD []).zip
      ((comp.attr d Cochain.sharedCoboundaries).getD []))]
    apply List.map_congr_left
    rintro ⟨q, s⟩ _
    simp
  · intro j c' hj a ha
    rw [Nat.zero_add, List.mem_map] at ha
    obtain ⟨⟨q, s⟩, hqs, rfl⟩ := ha
    obtain ⟨c, hc, hq1⟩ := attr_mem (List.of_mem_zip hqs).1
    have := ((hv c' (List.mem_of_getElem? hj)).valid d c hc).upper q hq1
    exact inSeg_shift hj this.1 hil

/-- The segment, recovered from the batch after the isolated vertices and the house. -/
example : ∃ B b, fromComplexList [Fixtures.dots, Fixtures.house, Fixtures.seg] 2 = .ok B ∧
    B.cochains[0]? = some b ∧
    (((b.upperIndex.getD []).zip (b.sharedCoboundaries.getD [])).filter (fun ps => inSeg (Complex.cellsIn 0)
      [Fixtures.dots, Fixtures.house, Fixtures.seg] 2 ps.1.1)).map
        (fun ps => ((ps.1.1 - 7, ps.1.2 - 7), ps.2 - 6)) = [((0, 1), 0), ((1, 0), 0)] := by
  refine ⟨_, _, rfl, rfl, ?_⟩
  decide

/-- **C05** Likewise for the lower adjacency with its shared ids. -/
theorem C05_recover_lower (cs : List (Complex F L)) (maxDim : Nat) (B : Complex F L)
    (h : fromComplexList cs maxDim = .ok B) (hv : ∀ comp ∈ cs, comp.Valid)
    (d : Nat) (b : Cochain F L) (hb : B.cochains[d]? = some b) (i : Nat) (comp : Complex F L)
    (hi : cs[i]? = some comp) :
    ((comp.attr d Cochain.lowerIndex).getD []).zip ((comp.attr d Cochain.sharedBoundaries).getD [])
    = (((b.lowerIndex.getD []).zip (b.sharedBoundaries.getD [])).filter
        (fun ps => inSeg (Complex.cellsIn d) cs i ps.1.1)).map
      (fun ps => ((ps.1.1 - before (Complex.cellsIn d) cs i, ps.1.2 - before (Complex.cellsIn d) cs i),
        ps.2 - before (Complex.cellsBelow d) cs i)) := by
  obtain ⟨-, hu, -⟩ := C01_complex_batch_adjacency cs maxDim B h d b hb
  obtain ⟨-, hsc, -⟩ :=
    C02_complex_batch_incidence cs maxDim B h (fun c hc => (hv c hc).toCoherent) d b hb
  have hlenU : ∀ comp ∈ cs, ((comp.attr d Cochain.lowerIndex).getD []).length =
      ((comp.attr d Cochain.sharedBoundaries).getD []).length := by
    intro comp hcomp
    unfold Complex.attr
    cases hc : comp.cochains[d]? with
    | none => rfl
    | some c => exact ((hv comp hcomp).valid d c hc).lowerShared.symm
  have hmem : ∀ {ci : Complex F L × Nat}, ci ∈ cs.zipIdx → ci.1 ∈ cs := by
    rintro ⟨c, i⟩ hci
    rw [List.mk_mem_zipIdx_iff_getElem?] at hci
    exact List.mem_of_getElem? hci
  have hil : i < cs.length := (List.getElem?_eq_some_iff.mp hi).1
  rw [hu, hsc]
  simp only [unionOf_getD]
  rw [zip_flatMap_blocks _ _ _ (fun ci hci => by simpa using hlenU ci.1 (hmem hci))]
  simp only [List.zip_map]
  rw [filter_blocks (s := 0) (f := fun c j => (((c.attr d Cochain.lowerIndex).getD []).zip
      ((c.attr d Cochain.sharedBoundaries).getD [])).map (Prod.map
        (fun p => (p.1 + before (Complex.cellsIn d) cs j, p.2 + before (Complex.cellsIn d) cs j))
        (fun s => s + before (Complex.cellsBelow d) cs j))) hi]
  · rw [List.map_map, Nat.zero_add]
    conv_lhs => rw [← List.map_id (((comp.attr d Cochain.lowerIndex).getD []).zip
      ((comp.attr d Cochain.sharedBoundaries).getD []))]
    apply List.map_congr_left
    rintro ⟨q, s⟩ _
    simp
  · intro j c' hj a ha
    rw [Nat.zero_add, List.mem_map] at ha
    obtain ⟨⟨q, s⟩, hqs, rfl⟩ := ha
    obtain ⟨c, hc, hq1⟩ := attr_mem (List.of_mem_zip hqs).1
    have := ((hv c' (List.mem_of_getElem? hj)).valid d c hc).lower q hq1
    exact inSeg_shift hj this.1 hil

/-- The first lower adjacencies of the house, recovered from a batch after the segment. -/
example : ∃ B b, fromComplexList [Fixtures.seg, Fixtures.house] 2 = .ok B ∧
    B.cochains[1]? = some b ∧
    ((((b.lowerIndex.getD []).zip (b.sharedBoundaries.getD [])).filter (fun ps => inSeg (Complex.cellsIn 1)
      [Fixtures.seg, Fixtures.house] 1 ps.1.1)).map
        (fun ps => ((ps.1.1 - 1, ps.1.2 - 1), ps.2 - 3))).take 3 = [((0, 1), 1), ((1, 0), 1), ((0, 3), 0)] := by
  refine ⟨_, _, rfl, rfl, ?_⟩
  decide

/-- **C05** Likewise for the incidence. -/
theorem C05_recover_boundary (cs : List (Complex F L)) (maxDim : Nat) (B : Complex F L)
    (h : fromComplexList cs maxDim = .ok B) (hv : ∀ comp ∈ cs, comp.Valid)
    (d : Nat) (b : Cochain F L) (hb : B.cochains[d]? = some b) (i : Nat) (comp : Complex F L)
    (hi : cs[i]? = some comp) :
    (comp.attr d Cochain.boundaryIndex).getD [] =
      ((b.boundaryIndex.getD []).filter (fun p => inSeg (Complex.cellsIn d) cs i p.2)).map
      (fun p => (p.1 - before (Complex.cellsBelow d) cs i, p.2 - before (Complex.cellsIn d) cs i)) := by
  obtain ⟨hbi, -⟩ :=
    C02_complex_batch_incidence cs maxDim B h (fun c hc => (hv c hc).toCoherent) d b hb
  have hil : i < cs.length := (List.getElem?_eq_some_iff.mp hi).1
  rw [hbi]
  simp only [unionOf_getD]
  rw [filter_blocks (s := 0) (f := fun c j => ((c.attr d Cochain.boundaryIndex).getD []).map
        (fun p => (p.1 + before (Complex.cellsBelow d) cs j, p.2 + before (Complex.cellsIn d) cs j))) hi]
  · rw [List.map_map, Nat.zero_add]
    conv_lhs => rw [← List.map_id ((comp.attr d Cochain.boundaryIndex).getD [])]
    apply List.map_congr_left
    rintro q _
    simp
  · intro j c' hj a ha
    rw [Nat.zero_add, List.mem_map] at ha
    obtain ⟨q, hq, rfl⟩ := ha
    obtain ⟨c, hc, hq1⟩ := attr_mem hq
    have := ((hv c' (List.mem_of_getElem? hj)).valid d c hc).boundary q hq1
    exact inSeg_shift hj this.2 hil

/-- The hypothesis on the complexes. -/
example : ∀ comp ∈ [Fixtures.dots, Fixtures.house, Fixtures.seg], comp.Valid := by
  intro comp h
  simp only [List.mem_cons, List.not_mem_nil, or_false] at h
  rcases h with rfl | rfl | rfl <;> exact validB_sound (by decide)

theorem segment_of_flatMap {C A : Type} (f : C → List A) (cs : List C) (i : Nat) (c : C)
    (hi : cs[i]? = some c) :
    ((cs.flatMap f).drop (before (fun c => (f c).length) cs i)).take (f c).length = f c := by
  induction cs generalizing i with
  | nil => simp at hi
  | cons e cs ih =>
    cases i with
    | zero => simp at hi; subst hi; simp [before_zero]
    | succ i =>
      have : before (fun c => (f c).length) (e :: cs) (i + 1) =
          (f e).length + before (fun c => (f c).length) cs i := by simp [before]
      rw [this, List.flatMap_cons, List.drop_append]
      simp only [Nat.le_add_right, List.drop_eq_nil_of_le, List.nil_append, Nat.add_sub_cancel_left]
      exact ih i (by simpa using hi)

/-- **C05** Likewise for the features, when every dimension with cells carries features: the rows
of complex `i` are the rows of its segment. -/
theorem C05_recover_features (cs : List (Complex F L)) (maxDim : Nat) (B : Complex F L)
    (h : fromComplexList cs maxDim = .ok B)
    (d : Nat) (hx : ∀ comp ∈ cs, ((comp.attr d Cochain.x).getD []).length = comp.cellsIn d)
    (b : Cochain F L) (hb : B.cochains[d]? = some b) (i : Nat) (comp : Complex F L)
    (hi : cs[i]? = some comp) :
    (comp.attr d Cochain.x).getD [] =
      ((b.x.getD []).drop (before (Complex.cellsIn d) cs i)).take (comp.cellsIn d) := by
  obtain ⟨-, -, hbx, -⟩ := C01_complex_batch_adjacency cs maxDim B h d b hb
  rw [hbx, unionOf_getD]
  have e : (cs.zipIdx.flatMap fun ci => ((ci.1.attr d Cochain.x).getD []).map fun r => r) =
      cs.flatMap fun c => (c.attr d Cochain.x).getD [] := by
    simp only [List.map_id']
    rw [List.flatMap_def, List.flatMap_def]
    have e1 : (cs.zipIdx.map fun ci => (ci.1.attr d Cochain.x).getD []) =
        (cs.zipIdx.map Prod.fst).map (fun c => (c.attr d Cochain.x).getD []) := by
      rw [List.map_map]; rfl
    rw [e1, List.zipIdx_map_fst]
  rw [e, ← hx comp (List.mem_of_getElem? hi), ← before_congr hx]
  exact (segment_of_flatMap (fun c : Complex F L => (c.attr d Cochain.x).getD []) cs i comp hi).symm

example : ∃ B b, fromComplexList [Fixtures.dots, Fixtures.house, Fixtures.seg] 2 = .ok B ∧
    B.cochains[1]? = some b ∧
    ((b.boundaryIndex.getD []).filter (fun p => inSeg (Complex.cellsIn 1)
      [Fixtures.dots, Fixtures.house, Fixtures.seg] 2 p.2)).map (fun p => (p.1 - 7, p.2 - 6)) =
    [(0, 0), (1, 0)] := by
  refine ⟨_, _, rfl, rfl, ?_⟩
  decide

theorem labelLoop_eq (per : Bool) (acc : List L) (cs : List (Complex F L)) :
    labelLoop per acc cs =
      if per = true ∧ ∀ comp ∈ cs, comp.y.isSome then
        some (acc ++ cs.flatMap fun comp => comp.y.getD []) else none := by
  induction cs generalizing per acc with
  | nil => cases per <;> simp [labelLoop]
  | cons c cs ih =>
    simp only [labelLoop, ih]
    cases per with
    | false => simp
    | true =>
      cases hy : c.y with
      | none => simp [hy]
      | some l => simp [hy]

/-- **C06** The batch reports the number of complexes, the largest dimension capped by `max_dim`,
and the concatenated labels when every complex has labels, none otherwise. -/
theorem C06_batch_labels_dimension_size (cs : List (Complex F L)) (maxDim : Nat) (B : Complex F L)
    (h : fromComplexList cs maxDim = .ok B) :
    B.numComplexes = some cs.length ∧
    B.dimension ≤ maxDim ∧ (∀ comp ∈ cs, min comp.dimension maxDim ≤ B.dimension) ∧
    (∃ comp ∈ cs, B.dimension = min comp.dimension maxDim) ∧
    B.cochains.length = B.dimension + 1 ∧
    ((∀ comp ∈ cs, comp.y.isSome) → B.y = some (cs.flatMap fun comp => comp.y.getD [])) ∧
    ((∃ comp ∈ cs, comp.y = none) → B.y = none) := by
  have f := fromComplexList_inv h
  obtain ⟨m, hm, hd⟩ := f.dimension
  rw [List.max?_eq_some_iff] at hm
  refine ⟨f.numComplexes, by omega, ?_, ?_, f.coherent.len, ?_, ?_⟩
  · intro comp hc
    have := hm.2 _ (List.mem_map_of_mem hc)
    omega
  · obtain ⟨comp, hc, he⟩ := List.mem_map.mp hm.1
    exact ⟨comp, hc, by rw [hd, he]⟩
  · intro hy
    rw [f.y, labelLoop_eq, if_pos ⟨rfl, hy⟩, List.nil_append]
  · rintro ⟨comp, hc, hy⟩
    rw [f.y, labelLoop_eq, if_neg]
    rintro ⟨-, hall⟩
    have := hall comp hc
    simp [hy] at this

example : (fromComplexList [Fixtures.dots, Fixtures.house, Fixtures.seg] 1).map
    (fun B => (B.numComplexes, B.dimension, B.y)) = .ok (some 3, 1, some [5, 1, 0]) := by decide
/-- One complex without labels: the labels of the others are dropped without an error. -/
example : (fromComplexList [Fixtures.dots, { Fixtures.house with y := none }, Fixtures.seg] 1).map
    (fun B => (B.numComplexes, B.y)) = .ok (some 3, none) := by decide
/-- No complexes: `max([])` raises `ValueError`. -/
example : fromComplexList ([] : List (Complex Nat Nat)) 2 = .error .value := by decide

/-- **C06** `get_labels` of a batch: without dimension the labels of the complexes in order, if all have some; for a
dimension the labels of the cells of that dimension in order, whether or not the complexes have labels;
`NotImplementedError` above the dimension of the batch. -/
theorem C06_get_labels (cs : List (Complex F L)) (maxDim : Nat) (B : Complex F L)
    (h : fromComplexList cs maxDim = .ok B) :
    B.getLabels none =
      .ok (if ∀ comp ∈ cs, comp.y.isSome then some (cs.flatMap fun comp => comp.y.getD []) else none) ∧
    (∀ d, d ≤ B.dimension → B.getLabels (some d) = .ok (
      if ∃ comp ∈ cs, ∃ c, comp.cochains[d]? = some c ∧ c.y.isSome then
        some (cs.flatMap fun comp => match comp.cochains[d]? with
          | some c => c.y.getD []
          | none => [])
      else none)) ∧
    ∀ d, B.dimension < d → B.getLabels (some d) = .error .notImplemented := by
  have f := fromComplexList_inv h
  refine ⟨?_, fun d hd => ?_, fun d hd => ?_⟩
  · rw [Complex.getLabels, f.y, labelLoop_eq]
    simp
  · have hlt : d < B.cochains.length := by rw [f.coherent.len]; omega
    have hb := List.getElem?_eq_getElem hlt
    rw [Complex.getLabels, hb]
    have hy := (C01_complex_batch_adjacency cs maxDim B h d _ hb).2.2.2.1
    have hattr : ∀ comp : Complex F L, comp.attr d Cochain.y = comp.cochains[d]?.bind Cochain.y := fun _ => rfl
    simp only [hy, unionOf, hattr, List.map_id_fun', id]
    congr 1
    have h1 : (∃ c ∈ cs, (c.cochains[d]?.bind Cochain.y).isSome) ↔
        ∃ comp ∈ cs, ∃ c, comp.cochains[d]? = some c ∧ c.y.isSome := by
      constructor
      · rintro ⟨c, hc, hs⟩
        cases hx : c.cochains[d]? with
        | none => rw [hx] at hs; cases hs
        | some k => rw [hx] at hs; exact ⟨c, hc, k, hx, hs⟩
      · rintro ⟨c, hc, k, hx, hs⟩
        exact ⟨c, hc, by rw [hx]; exact hs⟩
    have h2 : (cs.zipIdx.flatMap fun ci => ((ci.1.cochains[d]?.bind Cochain.y).getD [])) =
        cs.flatMap fun comp => match comp.cochains[d]? with
          | some c => c.y.getD []
          | none => [] := by
      have : cs.flatMap (fun comp => match comp.cochains[d]? with
          | some c => c.y.getD []
          | none => []) = (cs.zipIdx.map Prod.fst).flatMap fun comp => match comp.cochains[d]? with
          | some c => c.y.getD []
          | none => [] := by rw [List.zipIdx_map_fst]
      rw [this, List.flatMap_map]
      apply List.flatMap_congr
      intro ci _
      cases ci.1.cochains[d]? <;> rfl
    rw [h2]
    by_cases h3 : ∃ comp ∈ cs, ∃ c, comp.cochains[d]? = some c ∧ c.y.isSome
    · rw [if_pos (h1.2 h3), if_pos h3]
    · rw [if_neg (fun h => h3 (h1.1 h)), if_neg h3]
  · rw [Complex.getLabels, List.getElem?_eq_none (by rw [f.coherent.len]; omega)]

example : ((fromComplexList [Fixtures.dots, Fixtures.house, Fixtures.seg] 1).toOption.map fun B =>
    (B.getLabels none, B.getLabels (some 2))) = some (.ok (some [5, 1, 0]), .error .notImplemented) := by decide

end Verif
