import Verif.Lemmas.ComplexBatch
import Verif.Fixtures

/-!
# Batching of cochains: properties C01, C02, C03, C07
-/

namespace Verif

variable {F L : Type}

/-- **C01** Batched upper adjacency is the disjoint union: item `i`'s columns shifted by the
number of cells of the items before it; absent iff no item has one. Whenever there is an
adjacency, the count of every item is a number the item really reports. -/
theorem C01_batched_upper_adjacency (cs : List (Cochain F L)) (b : Cochain F L)
    (h : fromCochainList cs = .ok b) :
    b.upperIndex = unionOf Cochain.upperIndex
      (fun i p => (p.1 + before Cochain.count cs i, p.2 + before Cochain.count cs i)) cs ∧
    ((∃ c ∈ cs, c.upperIndex.isSome) →
      ∀ c ∈ cs, c.numCells = .ok (some c.count) ∨ (c.numCells = .ok none ∧ c.count = 0)) := by
  have f := fromCochainList_inv h
  refine ⟨f.upper, fun he c hc => ?_⟩
  have := f.upperCounts he c hc
  unfold Cochain.incIndex at this
  obtain ⟨n, hn, _⟩ := bind_eq_ok.mp this
  cases n with
  | none => right; exact ⟨hn, by simp [Cochain.count, hn]⟩
  | some n => left; rw [hn, count_of hn]

/-- The second item has no adjacency but shifts the third by its two cells. -/
example : (fromCochainList [Fixtures.segV, Fixtures.dotsV, Fixtures.segV]).map Cochain.upperIndex =
    .ok (some [(0, 1), (1, 0), (5, 6), (6, 5)]) := by decide

/-- **C01** Batched lower adjacency, likewise. -/
theorem C01_batched_lower_adjacency (cs : List (Cochain F L)) (b : Cochain F L)
    (h : fromCochainList cs = .ok b) :
    b.lowerIndex = unionOf Cochain.lowerIndex
      (fun i p => (p.1 + before Cochain.count cs i, p.2 + before Cochain.count cs i)) cs ∧
    ((∃ c ∈ cs, c.lowerIndex.isSome) →
      ∀ c ∈ cs, c.numCells = .ok (some c.count) ∨ (c.numCells = .ok none ∧ c.count = 0)) := by
  have f := fromCochainList_inv h
  refine ⟨f.lower, fun he c hc => ?_⟩
  have := f.lowerCounts he c hc
  unfold Cochain.incIndex at this
  obtain ⟨n, hn, _⟩ := bind_eq_ok.mp this
  cases n with
  | none => right; exact ⟨hn, by simp [Cochain.count, hn]⟩
  | some n => left; rw [hn, count_of hn]

/-- The lower adjacencies of six edges, one edge without any, and six edges. -/
example : (fromCochainList [{ Fixtures.houseE with lowerIndex := some [(0, 1), (1, 0)], numCellsDownAttr := some (some 5) },
      { Fixtures.segE with numCellsDownAttr := some (some 3) },
      { Fixtures.houseE with lowerIndex := some [(4, 5), (5, 4)], numCellsDownAttr := some (some 5) }]).map
        Cochain.lowerIndex =
    .ok (some [(0, 1), (1, 0), (11, 12), (12, 11)]) := by decide

/-- **C01** Entries that are not indices (features, labels, orientations, masks) are concatenated
unchanged, in order. -/
theorem C01_batched_plain_attributes (cs : List (Cochain F L)) (b : Cochain F L)
    (h : fromCochainList cs = .ok b) :
    b.x = unionOf Cochain.x (fun _ r => r) cs ∧ b.y = unionOf Cochain.y (fun _ l => l) cs ∧
    b.upperOrient = unionOf Cochain.upperOrient (fun _ o => o) cs ∧
    b.lowerOrient = unionOf Cochain.lowerOrient (fun _ o => o) cs ∧
    b.mask = unionOf Cochain.mask (fun _ m => m) cs := by
  have f := fromCochainList_inv h
  exact ⟨f.x, f.y, f.upperOrient, f.lowerOrient, f.mask⟩

/-- Signs and masks of one item, features and labels of all. -/
example : (fromCochainList [{ Fixtures.segV with upperOrient := some [1, -1], mask := some [true, false, true] },
      Fixtures.dotsV]).toOption.map (fun b => (b.x, b.y)) = some (some [7, 8, 9, 20, 21], some [1, 1, 1, 1, 2]) ∧
    (fromCochainList [{ Fixtures.segV with upperOrient := some [1, -1], mask := some [true, false, true] },
      Fixtures.dotsV]).toOption.map (fun b => (b.upperOrient, b.lowerOrient, b.mask)) =
        some (some [1, -1], none, some [true, false, true]) := by decide

/-- **C02** Batched incidence and shared ids: each kind of id is shifted by the running count of
the dimension its values live in. -/
theorem C02_batched_incidence (cs : List (Cochain F L)) (b : Cochain F L)
    (h : fromCochainList cs = .ok b) :
    b.boundaryIndex = unionOf Cochain.boundaryIndex
      (fun i p => (p.1 + before Cochain.countDown cs i, p.2 + before Cochain.count cs i)) cs ∧
    b.sharedBoundaries = unionOf Cochain.sharedBoundaries
      (fun i s => s + before Cochain.countDown cs i) cs ∧
    b.sharedCoboundaries = unionOf Cochain.sharedCoboundaries
      (fun i s => s + before Cochain.countUp cs i) cs := by
  have f := fromCochainList_inv h
  exact ⟨f.boundary, f.sb, f.sc⟩

/-- Edges of the segment after an item with no edges but two vertices. -/
example : (fromCochainList [{ dim := 1, numCellsDownAttr := some (some 2) },
      { Fixtures.segE with numCellsDownAttr := some (some 3) },
      { Fixtures.segE with numCellsDownAttr := some (some 3) }]).map Cochain.boundaryIndex =
    .ok (some [(2, 0), (3, 0), (5, 1), (6, 1)]) := by decide

/-- **C02** Offsets are never guessed: when some item has an incidence or shared boundaries, an
item above dimension 0 with lower adjacencies but without a recorded number of cells below cannot
be batched. -/
theorem C02_counts_below_are_required (cs : List (Cochain F L)) (b : Cochain F L)
    (h : fromCochainList cs = .ok b)
    (hd : ∃ c ∈ cs, c.boundaryIndex.isSome ∨ c.sharedBoundaries.isSome) (c : Cochain F L) (hc : c ∈ cs)
    (h0 : c.dim ≠ 0) (hl : c.lowerIndex.isSome) : c.numCellsDownAttr.isSome := by
  obtain ⟨n, hn⟩ := down_known h hd c hc
  unfold Cochain.numCellsDown at hn
  rw [if_neg h0] at hn
  obtain ⟨li, hli⟩ := Option.isSome_iff_exists.mp hl
  cases he : c.numCellsDownAttr with
  | some _ => rfl
  | none => rw [he, hli] at hn; simp at hn

/-- An edge with lower adjacencies can be batched with its number of vertices, and not without. -/
example : (fromCochainList [{ Fixtures.segE with lowerIndex := some [], numCellsDownAttr := some (some 3) },
      { Fixtures.segE with numCellsDownAttr := some (some 3) }]).isOk = true ∧
    (fromCochainList [{ Fixtures.segE with lowerIndex := some [], numCellsDownAttr := none },
      { Fixtures.segE with numCellsDownAttr := some (some 3) }]).isOk = false := by
  decide
/-- **C03** With known counts, the batch vector repeats item number `i` as often as item `i` has
cells, and the pointers are the running counts. -/
theorem C03_batch_vector_and_ptr (cs : List (Cochain F L)) (b : Cochain F L)
    (h : fromCochainList cs = .ok b) (hk : ∀ c ∈ cs, ∃ n, c.numCells = .ok (some n)) :
    b.batch = some (cs.zipIdx.flatMap fun ci => List.replicate ci.1.count ci.2) ∧
    b.ptr = some ((List.range (cs.length + 1)).map (before Cochain.count cs)) := by
  have f := fromCochainList_inv h
  obtain ⟨r, hr, hb, hp⟩ := f.segs
  have hk' : ∀ c ∈ cs, c.numCells = .ok (some c.count) := by
    intro c hc
    obtain ⟨n, hn⟩ := hk c hc
    rw [hn, count_of hn]
  rw [batchLoop_known hk'] at hr
  injection hr with hr
  subst hr
  have hne := f.ne
  constructor
  · rw [hb, if_neg]
    · rw [List.flatMap_def]
    · cases cs with
      | nil => exact absurd rfl hne
      | cons c cs => simp
  · rw [hp, if_neg]
    · rw [List.range_succ_eq_map, List.map_cons, List.map_map, before_zero]
      simp [Function.comp_def]
    · cases cs with
      | nil => exact absurd rfl hne
      | cons c cs => simp

example : (fromCochainList [Fixtures.segV, Fixtures.dotsV, Fixtures.segV]).map
      (fun b => (b.batch, b.ptr)) =
    .ok (some [0, 0, 0, 1, 1, 2, 2, 2], some [0, 3, 5, 8]) := by decide

/-- **C03** Row `r` of the batch belongs to item `i` exactly when `ptr[i] ≤ r < ptr[i+1]`. -/
theorem C03_row_membership (cs : List (Cochain F L)) (b : Cochain F L)
    (h : fromCochainList cs = .ok b) (hk : ∀ c ∈ cs, ∃ n, c.numCells = .ok (some n)) :
    ∃ v ptr, b.batch = some v ∧ b.ptr = some ptr ∧ ptr.length = cs.length + 1 ∧
      ptr[0]? = some 0 ∧ ptr[cs.length]? = some v.length ∧
      ∀ r i, v[r]? = some i ↔ ∃ lo hi, ptr[i]? = some lo ∧ ptr[i + 1]? = some hi ∧ lo ≤ r ∧ r < hi := by
  obtain ⟨hb, hp⟩ := C03_batch_vector_and_ptr cs b h hk
  refine ⟨_, _, hb, hp, by simp, ?_, ?_, ?_⟩
  · simp [before_zero]
  · simp only [List.getElem?_map, List.getElem?_range (Nat.lt_succ_self _), Option.map_some,
      List.length_flatMap, List.length_replicate, before, List.take_length]
    congr 2
    have e : (cs.zipIdx.map fun ci => ci.1.count) = (cs.zipIdx.map Prod.fst).map Cochain.count := by
      rw [List.map_map]; rfl
    rw [e, List.zipIdx_map_fst]
  · intro r i
    rw [getElem?_replicates]
    simp only [Nat.sub_zero, Nat.zero_add, Nat.zero_le, true_and, List.getElem?_map]
    constructor
    · rintro ⟨h1, h2, h3⟩
      exact ⟨_, _, by rw [List.getElem?_range (by omega)]; rfl,
        by rw [List.getElem?_range (by omega)]; rfl, h2, h3⟩
    · rintro ⟨lo, hi, h1, h2, h3, h4⟩
      have hi' : i + 1 < cs.length + 1 := by
        by_contra hc
        rw [List.getElem?_eq_none (by simpa using hc)] at h2
        simp at h2
      rw [List.getElem?_range (by omega)] at h1
      rw [List.getElem?_range (by omega)] at h2
      simp only [Option.map_some, Option.some.injEq] at h1 h2
      omega

/-- The fifth row belongs to the second item, whose rows are those from 3 to before 5. -/
example : (fromCochainList [Fixtures.segV, Fixtures.dotsV, Fixtures.segV]).map
      (fun b => (b.batch.bind (·[4]?), b.ptr.bind (·[1]?), b.ptr.bind (·[2]?))) =
    .ok (some 1, some 3, some 5) := by decide

/-- **C03** When some items do not know their number of cells (a missing dimension), the batch
vector is still right, those items having no cells; but the pointers skip them, so pointer `i` need
not belong to item `i`. -/
theorem C03_batch_vector_with_unknown_counts (cs : List (Cochain F L)) (b : Cochain F L)
    (h : fromCochainList cs = .ok b) (hk : ∃ c ∈ cs, ∃ n, c.numCells = .ok (some n)) :
    b.batch = some (cs.zipIdx.flatMap fun ci => List.replicate ci.1.count ci.2) := by
  have f := fromCochainList_inv h
  obtain ⟨r, hr, hb, -⟩ := f.segs
  rw [hb, batchLoop_flatten hr, if_neg]
  intro hemp
  have : ∀ (cs : List (Cochain F L)) (i l : Nat) (r : List (List Nat) × List Nat),
      batchLoop i l cs = .ok r → (∃ c ∈ cs, ∃ n, c.numCells = .ok (some n)) → r.1.isEmpty = false := by
    intro cs
    induction cs with
    | nil => rintro i l r h ⟨c, hc, _⟩; simp at hc
    | cons c cs ih =>
      rintro i l r h ⟨e, he, n, hn⟩
      unfold batchLoop at h
      obtain ⟨m, hm, h⟩ := bind_eq_ok.mp h
      cases m with
      | some m =>
        obtain ⟨r', _, h⟩ := bind_eq_ok.mp h
        cases h; rfl
      | none =>
        rcases List.mem_cons.mp he with rfl | he
        · rw [hm] at hn; simp at hn
        · exact ih _ _ _ h ⟨e, he, n, hn⟩
  rw [this cs 0 0 r hr hk] at hemp
  simp at hemp

/-- Three items, the first without edges: the pointers have only three entries. -/
example : (fromCochainList [{ dim := 1, numCellsDownAttr := some (some 2) }, Fixtures.segE,
      Fixtures.segE]).map (fun b => (b.batch, b.ptr)) =
    .ok (some [1, 2], some [0, 1, 2]) := by decide

/-- **C07** When features are present on at least one item, and every item without features has
no cells, the batch reports the sum of the items' counts. -/
theorem C07_batched_count_with_features (cs : List (Cochain F L)) (b : Cochain F L)
    (h : fromCochainList cs = .ok b) (hx : ∃ c ∈ cs, c.x.isSome)
    (hrows : ∀ c ∈ cs, (c.x.getD []).length = c.count) :
    b.numCells = .ok (some (cs.map Cochain.count).sum) :=
  batch_count h hx hrows

/-- Features on the first two items, the third has no cells. -/
example : (fromCochainList [Fixtures.houseV, Fixtures.dotsV, { dim := 0 }]).map Cochain.numCells =
    .ok (.ok (some 7)) := by decide

/-- **C07** Without any features, when the counts of the items are what their incidences say
(one more than the largest cell of an incidence column, no cells without incidence), the batch
reports the sum of the counts too. -/
theorem C07_batched_count_from_incidence (cs : List (Cochain F L)) (b : Cochain F L)
    (h : fromCochainList cs = .ok b) (hx : ∀ c ∈ cs, c.x = none)
    (hb : ∃ c ∈ cs, c.boundaryIndex.isSome)
    (hn : ∀ c ∈ cs, (c.boundaryIndex = none ∧ c.count = 0) ∨
      ∃ bi, c.boundaryIndex = some bi ∧ ∃ p ∈ bi, c.count = p.2 + 1 ∧ ∀ q ∈ bi, q.2 ≤ p.2) :
    b.numCells = .ok (some (cs.map Cochain.count).sum) := by
  have f := fromCochainList_inv h
  have hbx : b.x = none := by
    rw [f.x]
    unfold unionOf
    rw [if_neg]
    rintro ⟨c, hc, hs⟩
    rw [hx c hc] at hs
    simp at hs
  have hbb := f.boundary
  rw [unionOf_some_of hb] at hbb
  unfold Cochain.numCells
  rw [f.explicit.1, hbx, hbb]
  have key : Cochain.maxPlusOne ((cs.zipIdx.flatMap fun ci => (ci.1.boundaryIndex.getD []).map
      (shiftPair2 (before Cochain.countDown cs ci.2, before Cochain.count cs ci.2))).map Prod.snd) =
      .ok (cs.map Cochain.count).sum := by
    rw [maxPlusOne_eq_ok]
    -- the last item with an incidence
    obtain ⟨i, c, bi, hci, hbi, hlast⟩ : ∃ (i : Nat) (c : Cochain F L) (bi : List (Nat × Nat)),
        cs[i]? = some c ∧ c.boundaryIndex = some bi ∧
        ∀ j d, i < j → cs[j]? = some d → d.boundaryIndex = none := by
      clear hbb hbx f h hn hx
      induction cs with
      | nil => obtain ⟨c, hc, _⟩ := hb; simp at hc
      | cons c cs ih =>
        by_cases hcs : ∃ c ∈ cs, c.boundaryIndex.isSome
        · obtain ⟨i, d, bi, h1, h2, h3⟩ := ih hcs
          refine ⟨i + 1, d, bi, by simpa using h1, h2, ?_⟩
          intro j e hj he
          cases j with
          | zero => omega
          | succ j => exact h3 j e (by omega) (by simpa using he)
        · obtain ⟨d, hd, hds⟩ := hb
          rcases List.mem_cons.mp hd with rfl | hd
          · obtain ⟨bi, hbi⟩ := Option.isSome_iff_exists.mp hds
            refine ⟨0, d, bi, rfl, hbi, ?_⟩
            intro j e hj he
            cases j with
            | zero => omega
            | succ j =>
              have : e ∈ cs := List.mem_of_getElem? (by simpa using he)
              cases heb : e.boundaryIndex with
              | none => rfl
              | some _ => exact absurd ⟨e, this, by simp [heb]⟩ hcs
          · exact absurd ⟨d, hd, hds⟩ hcs
    have htot : (cs.map Cochain.count).sum = before Cochain.count cs (i + 1) := by
      have hrest : ∀ d ∈ cs.drop (i + 1), d.count = 0 := by
        intro d hd
        obtain ⟨j, hj⟩ := List.mem_iff_getElem?.mp hd
        rw [List.getElem?_drop] at hj
        have hnone := hlast _ d (by omega) hj
        rcases hn d (List.mem_of_getElem? hj) with ⟨_, h0⟩ | ⟨bi, hbi, _⟩
        · exact h0
        · rw [hnone] at hbi; simp at hbi
      have : ((cs.drop (i + 1)).map Cochain.count).sum = 0 := by
        rw [List.map_congr_left (g := fun _ => 0) hrest]
        simp
      unfold before
      conv_lhs => rw [← List.take_append_drop (i + 1) cs]
      rw [List.map_append, List.sum_append, this]
      rfl
    obtain ⟨p, hp, hcount, hmax⟩ : ∃ p ∈ bi, c.count = p.2 + 1 ∧ ∀ q ∈ bi, q.2 ≤ p.2 := by
      rcases hn c (List.mem_of_getElem? hci) with ⟨h0, _⟩ | ⟨bi', hbi', h⟩
      · rw [hbi] at h0; simp at h0
      · rw [hbi] at hbi'; cases hbi'; exact h
    refine ⟨p.2 + before Cochain.count cs i, ?_, ?_, ?_⟩
    · rw [mem_shifted_snd (g := fun i => (before Cochain.countDown cs i, before Cochain.count cs i))]
      refine ⟨c, i, p, ?_, by simpa [hbi] using hp, rfl⟩
      rw [List.mk_mem_zipIdx_iff_getElem?]; exact hci
    · rw [htot, before_succ_getElem _ _ hci]; omega
    · intro a ha
      rw [mem_shifted_snd (g := fun i => (before Cochain.countDown cs i, before Cochain.count cs i))] at ha
      obtain ⟨d, j, q, hd, hq, rfl⟩ := ha
      rw [List.mk_mem_zipIdx_iff_getElem?] at hd
      dsimp only
      by_cases hij : i < j
      · rw [hlast j d hij hd] at hq; simp at hq
      · rcases Nat.lt_or_eq_of_le (Nat.not_lt.mp hij) with hlt | heq
        · -- an earlier item
          have h1 : q.2 + 1 ≤ d.count := by
            rcases hn d (List.mem_of_getElem? hd) with ⟨h0, _⟩ | ⟨bi', hbi', p', hp', hc', hm'⟩
            · rw [h0] at hq; simp at hq
            · rw [hbi'] at hq
              have := hm' q (by simpa using hq)
              omega
          have h2 := before_succ_getElem Cochain.count cs hd
          have h3 := before_le Cochain.count cs (show j + 1 ≤ i by omega)
          omega
        · subst heq
          rw [hci] at hd; cases hd
          rw [hbi] at hq
          have := hmax q (by simpa using hq)
          omega
  simp only [key, map_ok]

/-- Edges without features: the counts come from the incidences. -/
example : (fromCochainList (F := Nat) [{ Fixtures.houseE with x := none, numCellsDownAttr := some (some 5) },
      { dim := 1, numCellsDownAttr := some (some 2) },
      { Fixtures.segE with x := none, numCellsDownAttr := some (some 3) }]).map Cochain.numCells =
    .ok (.ok (some 7)) := by decide

/-- **C07** In general the claim fails: a count that is only given explicitly is dropped by
batching. Five featured vertices and three vertices that are only counted give a batch that
reports five cells, although its batch vector lists eight. -/
theorem C07_explicit_count_lost :
    ∃ (c c' b : Cochain Nat Nat) (v : List Nat), c.numCells = .ok (some 5) ∧ c'.numCells = .ok (some 3) ∧
      fromCochainList [c, c'] = .ok b ∧ b.numCells = .ok (some 5) ∧
      b.batch = some v ∧ v.length = 8 := by
  refine ⟨Fixtures.houseV, { dim := 0, numCellsAttr := some (some 3) }, _, _, ?_, ?_, rfl, ?_, rfl, ?_⟩
    <;> decide

/-- **C07** No item has features or an incidence: the batch does not know its number of cells,
whatever the items report (and a complex cannot be built on it, see `C09`). -/
theorem C07_count_unknown (cs : List (Cochain F L)) (b : Cochain F L)
    (h : fromCochainList cs = .ok b)
    (hx : ∀ c ∈ cs, c.x = none) (hb : ∀ c ∈ cs, c.boundaryIndex = none) :
    b.numCells = .ok none ∨ b.numCells = .error .assertion := by
  have f := fromCochainList_inv h
  have hbx : b.x = none := by
    rw [f.x]; unfold unionOf
    rw [if_neg]
    rintro ⟨c, hc, hs⟩
    rw [hx c hc] at hs; simp at hs
  have hbb : b.boundaryIndex = none := by
    rw [f.boundary]; unfold unionOf
    rw [if_neg]
    rintro ⟨c, hc, hs⟩
    rw [hb c hc] at hs; simp at hs
  unfold Cochain.numCells
  rw [f.explicit.1, hbx, hbb]
  dsimp only
  cases b.upperIndex.isNone && b.lowerIndex.isNone <;> simp

/-- Two counted but featureless vertex sets. -/
example : (fromCochainList [({ dim := 0, numCellsAttr := some (some 3) } : Cochain Nat Nat),
    { dim := 0, numCellsAttr := some (some 2) }]).map Cochain.numCells = .ok (.ok none) := by decide

end Verif
