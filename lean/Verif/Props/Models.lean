import Verif.Lemmas.Predict
import Verif.Props.Layers

/-!
# C16 - C19: predictions of networks

Learned maps are arbitrary functions on rows; `𝕜` are the scalars. `mB` is the `max_dim` with which
batches are built, the networks have their own.
-/

namespace Verif

variable {𝕜 R L : Type} [Field 𝕜] [AddCommMonoid R] [Module 𝕜 R]

/-! ### Helpers -/

theorem split_last {X : Type} {cs : List X} (h : cs ≠ []) : ∃ front last, cs = front ++ [last] :=
  ⟨cs.dropLast, cs.getLast h, (List.dropLast_append_getLast h).symm⟩

theorem batch_exists {cs : List (Complex R L)} (hne : cs ≠ []) (h : ∀ c ∈ cs, c.Ready) (mB : Nat) :
    ∃ B, fromComplexList cs mB = .ok B :=
  fromComplexList_ok hne (fun c hc => (h c hc).valid) (fun c hc => (h c hc).featured) mB

theorem SparseNet.forward_all {Lv : Type} {level : Lv → MPParams R → Py (List R)}
    {rule : Lv → Rule R} {needs : Lv → Prop} (hreal : Realises level rule needs false)
    {net : SparseNet R Lv} (hn : net.Fits) {cs : List (Complex R L)} (hne : cs ≠ [])
    (hr : ∀ c ∈ cs, c.Ready) (h0 : ∀ c ∈ cs, 0 < c.cellsIn 0) (mB : Nat) :
    (fromComplexList cs mB >>= net.forward 𝕜 level) =
      .ok (cs.map fun c => net.predict 𝕜 rule (c.view.upTo mB)) := by
  obtain ⟨B, hB⟩ := batch_exists hne hr mB
  obtain ⟨front, last, rfl⟩ := split_last hne
  rw [hB, ok_bind]
  exact SparseNet.forward_batch (rest := []) hreal hn hB hr (h0 last (by simp)) (by simp)

theorem CINNet.forward_all {Lv : Type} {level : Lv → MPParams R → Py (List R)}
    {rule : Lv → Rule R} {needs : Lv → Prop} (hreal : Realises level rule needs true)
    {net : CINNet R Lv} (hn : net.Fits) {cs : List (Complex R L)} (hne : cs ≠ [])
    (hr : ∀ c ∈ cs, c.Ready) (h0 : ∀ c ∈ cs, 0 < c.cellsIn 0) (mB : Nat) :
    (fromComplexList cs mB >>= net.forward 𝕜 level) =
      .ok (cs.map fun c => net.predict 𝕜 rule (c.view.upTo mB)) := by
  obtain ⟨B, hB⟩ := batch_exists hne hr mB
  obtain ⟨front, last, rfl⟩ := split_last hne
  rw [hB, ok_bind]
  exact CINNet.forward_batch (rest := []) hreal hn hB hr (h0 last (by simp)) (by simp)

/-- A function of batches that gives each complex of a batch what it gives to the complex alone. -/
theorem single_of_all {cs : List (Complex R L)} {f : List (Complex R L) → Py (List R)}
    {g : Complex R L → R} (hne : cs ≠ [])
    (hf : ∀ ds : List (Complex R L), ds ≠ [] → (∀ d ∈ ds, d ∈ cs) → f ds = .ok (ds.map g)) :
    ∃ preds, f cs = .ok preds ∧ preds.length = cs.length ∧
      ∀ (i : Nat) (comp : Complex R L), cs[i]? = some comp →
        ∃ p, preds[i]? = some p ∧ f [comp] = .ok [p] := by
  refine ⟨cs.map g, hf cs hne (fun _ h => h), by simp, ?_⟩
  intro i comp hi
  have hmem : comp ∈ cs := List.mem_of_getElem? hi
  refine ⟨g comp, by simp [hi], ?_⟩
  exact hf [comp] (by simp) (by simpa using hmem)

/-! ### C16 -/

/-- **C16** SparseCIN: the predictions for a batch are those for its complexes alone. -/
theorem C16_sparse_cin_predictions_do_not_depend_on_the_batch
    (net : SparseNet R (SparseLevel 𝕜 R)) (hn : net.Fits) (cs : List (Complex R L)) (hne : cs ≠ [])
    (hr : ∀ c ∈ cs, c.Ready) (h0 : ∀ c ∈ cs, 0 < c.cellsIn 0) (mB : Nat) :
    ∃ preds, (fromComplexList cs mB >>= net.forward 𝕜 SparseLevel.forward) = .ok preds ∧
      preds.length = cs.length ∧ ∀ (i : Nat) (comp : Complex R L), cs[i]? = some comp →
        ∃ p, preds[i]? = some p ∧
          (fromComplexList [comp] mB >>= net.forward 𝕜 SparseLevel.forward) = .ok [p] :=
  single_of_all (f := fun ds => fromComplexList ds mB >>= net.forward 𝕜 SparseLevel.forward) hne
    fun ds hds hsub => SparseNet.forward_all (realises_sparse false) hn hds
      (fun c hc => hr c (hsub c hc)) (fun c hc => h0 c (hsub c hc)) mB

/-- **C16** CIN++: likewise. -/
theorem C16_cinpp_predictions_do_not_depend_on_the_batch
    (net : SparseNet R (PPLevel 𝕜 R)) (hn : net.Fits) (cs : List (Complex R L)) (hne : cs ≠ [])
    (hr : ∀ c ∈ cs, c.Ready) (h0 : ∀ c ∈ cs, 0 < c.cellsIn 0) (mB : Nat) :
    ∃ preds, (fromComplexList cs mB >>= net.forward 𝕜 PPLevel.forward) = .ok preds ∧
      preds.length = cs.length ∧ ∀ (i : Nat) (comp : Complex R L), cs[i]? = some comp →
        ∃ p, preds[i]? = some p ∧
          (fromComplexList [comp] mB >>= net.forward 𝕜 PPLevel.forward) = .ok [p] :=
  single_of_all (f := fun ds => fromComplexList ds mB >>= net.forward 𝕜 PPLevel.forward) hne
    fun ds hds hsub => SparseNet.forward_all (realises_pp false) hn hds
      (fun c hc => hr c (hsub c hc)) (fun c hc => h0 c (hsub c hc)) mB

/-- **C16** CIN: likewise. -/
theorem C16_cin_predictions_do_not_depend_on_the_batch
    (net : CINNet R (CINLevel 𝕜 R)) (hn : net.Fits) (cs : List (Complex R L)) (hne : cs ≠ [])
    (hr : ∀ c ∈ cs, c.Ready) (h0 : ∀ c ∈ cs, 0 < c.cellsIn 0) (mB : Nat) :
    ∃ preds, (fromComplexList cs mB >>= net.forward 𝕜 CINLevel.forward) = .ok preds ∧
      preds.length = cs.length ∧ ∀ (i : Nat) (comp : Complex R L), cs[i]? = some comp →
        ∃ p, preds[i]? = some p ∧
          (fromComplexList [comp] mB >>= net.forward 𝕜 CINLevel.forward) = .ok [p] :=
  single_of_all (f := fun ds => fromComplexList ds mB >>= net.forward 𝕜 CINLevel.forward) hne
    fun ds hds hsub => CINNet.forward_all realises_cin hn hds
      (fun c hc => hr c (hsub c hc)) (fun c hc => h0 c (hsub c hc)) mB

/-- **C16** What is predicted, cell by cell: the networks compute the specification
`SparseNet.predict` / `CINNet.predict` of each complex cut off at the dimension of the batches. -/
theorem C16_predictions_meet_the_specification
    (sparse : SparseNet R (SparseLevel 𝕜 R)) (hs : sparse.Fits)
    (pp : SparseNet R (PPLevel 𝕜 R)) (hp : pp.Fits) (cin : CINNet R (CINLevel 𝕜 R)) (hc : cin.Fits)
    (cs : List (Complex R L)) (hne : cs ≠ []) (hr : ∀ c ∈ cs, c.Ready)
    (h0 : ∀ c ∈ cs, 0 < c.cellsIn 0) (mB : Nat) :
    (fromComplexList cs mB >>= sparse.forward 𝕜 SparseLevel.forward) =
        .ok (cs.map fun c => sparse.predict 𝕜 SparseLevel.rule (c.view.upTo mB)) ∧
      (fromComplexList cs mB >>= pp.forward 𝕜 PPLevel.forward) =
        .ok (cs.map fun c => pp.predict 𝕜 PPLevel.rule (c.view.upTo mB)) ∧
      (fromComplexList cs mB >>= cin.forward 𝕜 CINLevel.forward) =
        .ok (cs.map fun c => cin.predict 𝕜 CINLevel.rule (c.view.upTo mB)) :=
  ⟨SparseNet.forward_all (realises_sparse false) hs hne hr h0 mB,
    SparseNet.forward_all (realises_pp false) hp hne hr h0 mB,
    CINNet.forward_all realises_cin hc hne hr h0 mB⟩

/-! ### C17 -/

/-- The complexes of two lists are renumberings of each other, column orders may differ. -/
def RenumberedBatch (cs cs' : List (Complex R L)) : Prop :=
  List.Forall₂ (fun c c' => ∃ φ, Relabels c.view c'.view φ) cs cs'

theorem map_eq_of_renumbered {cs cs' : List (Complex R L)} (h : RenumberedBatch cs cs')
    (hr : ∀ c ∈ cs, c.Ready) {mB : Nat} {g : View R → R}
    (hg : ∀ v w φ, Relabels v w φ → v.InRange → g w = g v) :
    (cs'.map fun c => g (c.view.upTo mB)) = cs.map fun c => g (c.view.upTo mB) := by
  induction h with
  | nil => rfl
  | @cons c c' cs cs' hc _ ih =>
    obtain ⟨φ, hφ⟩ := hc
    rw [List.map_cons, List.map_cons, ih (fun d hd => hr d (by simp [hd])),
      hg _ _ φ (hφ.upTo mB) (upTo_inRange (ready_inRange (hr c (by simp))) mB)]

theorem cells_of_renumbered {cs cs' : List (Complex R L)} (h : RenumberedBatch cs cs')
    (hr : ∀ c ∈ cs, c.Ready) (hr' : ∀ c ∈ cs', c.Ready) (h0 : ∀ c ∈ cs, 0 < c.cellsIn 0) :
    ∀ c ∈ cs', 0 < c.cellsIn 0 := by
  induction h with
  | nil => simp
  | @cons c c' cs cs' hc _ ih =>
    obtain ⟨φ, hφ⟩ := hc
    intro d hd
    rcases List.mem_cons.mp hd with rfl | hd
    · rw [← ready_X_length (hr' d (by simp)), hφ.size, ready_X_length (hr c (by simp))]
      exact h0 c (by simp)
    · exact ih (fun d hd => hr d (by simp [hd])) (fun d hd => hr' d (by simp [hd]))
        (fun d hd => h0 d (by simp [hd])) d hd

theorem ne_of_renumbered {cs cs' : List (Complex R L)} (h : RenumberedBatch cs cs') (hne : cs ≠ []) :
    cs' ≠ [] := by
  cases h with
  | nil => exact hne
  | cons _ _ => simp

/-- **C17** The predictions of SparseCIN, CIN++ and CIN networks for a batch of complexes do not
change when the cells of the complexes are renumbered and the columns reordered. -/
theorem C17_predictions_do_not_depend_on_numbering
    (sparse : SparseNet R (SparseLevel 𝕜 R)) (hs : sparse.Fits)
    (pp : SparseNet R (PPLevel 𝕜 R)) (hp : pp.Fits) (cin : CINNet R (CINLevel 𝕜 R)) (hc : cin.Fits)
    (cs cs' : List (Complex R L)) (hne : cs ≠ []) (h : RenumberedBatch cs cs')
    (hr : ∀ c ∈ cs, c.Ready) (hr' : ∀ c ∈ cs', c.Ready) (h0 : ∀ c ∈ cs, 0 < c.cellsIn 0) (mB : Nat) :
    (∃ preds, (fromComplexList cs mB >>= sparse.forward 𝕜 SparseLevel.forward) = .ok preds ∧
      (fromComplexList cs' mB >>= sparse.forward 𝕜 SparseLevel.forward) = .ok preds) ∧
    (∃ preds, (fromComplexList cs mB >>= pp.forward 𝕜 PPLevel.forward) = .ok preds ∧
      (fromComplexList cs' mB >>= pp.forward 𝕜 PPLevel.forward) = .ok preds) ∧
    (∃ preds, (fromComplexList cs mB >>= cin.forward 𝕜 CINLevel.forward) = .ok preds ∧
      (fromComplexList cs' mB >>= cin.forward 𝕜 CINLevel.forward) = .ok preds) := by
  have h0' := cells_of_renumbered h hr hr' h0
  have hne' := ne_of_renumbered h hne
  refine ⟨⟨_, SparseNet.forward_all (realises_sparse false) hs hne hr h0 mB, ?_⟩,
    ⟨_, SparseNet.forward_all (realises_pp false) hp hne hr h0 mB, ?_⟩,
    ⟨_, CINNet.forward_all realises_cin hc hne hr h0 mB, ?_⟩⟩
  · rw [SparseNet.forward_all (realises_sparse false) hs hne' hr' h0' mB, map_eq_of_renumbered h hr
      (fun v w φ hφ hv => sparse.predict_relabel hφ hv)]
  · rw [SparseNet.forward_all (realises_pp false) hp hne' hr' h0' mB, map_eq_of_renumbered h hr
      (fun v w φ hφ hv => pp.predict_relabel hφ hv)]
  · rw [CINNet.forward_all realises_cin hc hne' hr' h0' mB, map_eq_of_renumbered h hr
      (fun v w φ hφ hv => cin.predict_relabel hφ hv)]

/-- **C17** In particular for permutations of the cells in every dimension. -/
theorem C17_predictions_do_not_depend_on_permutation
    (sparse : SparseNet R (SparseLevel 𝕜 R)) (hs : sparse.Fits)
    (pp : SparseNet R (PPLevel 𝕜 R)) (hp : pp.Fits) (cin : CINNet R (CINLevel 𝕜 R)) (hc : cin.Fits)
    (cs : List (Complex R L)) (hne : cs ≠ []) (hr : ∀ c ∈ cs, c.Ready)
    (h0 : ∀ c ∈ cs, 0 < c.cellsIn 0) (σ : Complex R L → Nat → Equiv.Perm Nat)
    (hσ : ∀ c ∈ cs, c.Permutes (σ c)) (mB : Nat) :
    (∃ preds, (fromComplexList cs mB >>= sparse.forward 𝕜 SparseLevel.forward) = .ok preds ∧
      (fromComplexList (cs.map fun c => c.relabel (σ c)) mB >>=
        sparse.forward 𝕜 SparseLevel.forward) = .ok preds) ∧
    (∃ preds, (fromComplexList cs mB >>= pp.forward 𝕜 PPLevel.forward) = .ok preds ∧
      (fromComplexList (cs.map fun c => c.relabel (σ c)) mB >>= pp.forward 𝕜 PPLevel.forward) =
        .ok preds) ∧
    (∃ preds, (fromComplexList cs mB >>= cin.forward 𝕜 CINLevel.forward) = .ok preds ∧
      (fromComplexList (cs.map fun c => c.relabel (σ c)) mB >>= cin.forward 𝕜 CINLevel.forward) =
        .ok preds) := by
  refine C17_predictions_do_not_depend_on_numbering sparse hs pp hp cin hc cs _ hne ?_ hr ?_ h0 mB
  · clear hne h0
    induction cs with
    | nil => exact .nil
    | cons c cs ih =>
      exact .cons ⟨_, (hr c (by simp)).relabels (hσ c (by simp))⟩
        (ih (fun d hd => hr d (by simp [hd])) (fun d hd => hσ d (by simp [hd])))
  · intro d hd
    obtain ⟨c, hc', rfl⟩ := List.mem_map.mp hd
    exact (hr c hc').relabel (hσ c hc')

/-! ### C18 -/

/-- **C18** `pool_complex`: one row per complex up to the last one with a vertex, in every dimension
up to `max_dim`; the row of complex `i` is the sum (or the mean) of the rows of exactly the cells that
the batch vector gives to `i`, zero if there are none or if no features came for the dimension. -/
theorem C18_pooling_is_exact (data : Complex R L) (bs : List (List Nat)) (xs : List (List R))
    (m last : Nat) (hx : xs ≠ []) (hxm : xs.length ≤ m + 1)
    (hb : ∀ (d : Nat), d < xs.length → data.attr d Cochain.batch = bs[d]?)
    (hl : bs.map List.length = xs.map List.length)
    (hlast : (bs[0]?.getD []).max? = some last)
    (hin : ∀ b ∈ bs, ∀ i ∈ b, i ≤ last) :
    ∃ sums means, poolComplex 𝕜 .sum data m xs = .ok sums ∧
      poolComplex 𝕜 .mean data m xs = .ok means ∧ sums.length = m + 1 ∧ means.length = m + 1 ∧
      ∀ d ≤ m, ∃ srow mrow, sums[d]? = some srow ∧ means[d]? = some mrow ∧
        srow.length = last + 1 ∧ mrow.length = last + 1 ∧
        ∀ i ≤ last, ∀ mine, mine = (((bs[d]?.getD []).zip (xs[d]?.getD [])).filter
            (fun p => p.1 == i)).map Prod.snd →
          srow[i]? = some mine.sum ∧
          mrow[i]? = some (((max mine.length 1 : Nat) : 𝕜)⁻¹ • mine.sum) := by
  have hlen : bs.length = xs.length := by
    have := congrArg List.length hl
    simpa using this
  have hx0 : 0 < xs.length := List.length_pos_iff.mpr hx
  have hsize : batchSize data = .ok (last + 1) := by
    have h0 := hb 0 hx0
    have hbs0 : ∃ b, bs[0]? = some b := ⟨bs[0], List.getElem?_eq_getElem (by omega)⟩
    obtain ⟨b, hb0⟩ := hbs0
    rw [hb0] at h0 hlast
    unfold Complex.attr at h0
    unfold batchSize
    cases hc : data.cochains[0]? with
    | none => rw [hc] at h0; simp at h0
    | some c =>
      rw [hc] at h0
      have h0 : c.batch = some b := by simpa using h0
      dsimp only
      rw [h0]
      dsimp only
      unfold Cochain.maxPlusOne
      rw [show b.max? = some last from hlast]
  have key : ∀ pool : Pooling, poolComplex 𝕜 pool data m xs =
      .ok ((List.range (m + 1)).map fun d => (List.range (last + 1)).map fun i =>
        pool.agg 𝕜 ((((bs[d]?.getD []).zip (xs[d]?.getD [])).filter
            (fun p => p.1 == i)).map Prod.snd)) := by
    intro pool
    unfold poolComplex
    rw [hsize, ok_bind, if_neg (by omega)]
    have hmap : mapE (poolDim 𝕜 pool data m (last + 1)) xs.zipIdx =
        .ok (xs.zipIdx.map fun xd => (List.range (last + 1)).map fun i =>
          pool.agg 𝕜 ((((bs[xd.2]?.getD []).zip (xs[xd.2]?.getD [])).filter
            (fun p => p.1 == i)).map Prod.snd)) := by
      apply mapE_ok
      rintro ⟨x, d⟩ hxd
      have hxd' := List.mem_zipIdx' hxd
      obtain ⟨hd, hxe⟩ := hxd'
      have hxe : xs[d]? = some x := by rw [List.getElem?_eq_getElem hd, hxe]
      have hbd := hb d hd
      have : ∃ b, bs[d]? = some b := ⟨bs[d], List.getElem?_eq_getElem (by omega)⟩
      obtain ⟨b, hbb⟩ := this
      rw [hbb] at hbd
      unfold Complex.attr at hbd
      unfold poolDim
      dsimp only
      cases hc : data.cochains[d]? with
      | none => rw [hc] at hbd; simp at hbd
      | some c =>
        rw [hc] at hbd
        have hbd : c.batch = some b := by simpa using hbd
        dsimp only
        rw [hbd]
        dsimp only
        have hlb : b.length = x.length := by
          have := congrArg (fun l => l[d]?) hl
          simpa [hbb, hxe] using this
        rw [scatter_ok hlb (fun i hi => by
          have := hin b (List.mem_of_getElem? hbb) i hi
          omega), ok_bind, if_pos (by omega)]
        simp [hbb, hxe]
    rw [hmap, ok_bind, pure_eq_ok, ok_inj]
    apply List.ext_getElem?
    intro d
    by_cases hd : d < xs.length
    · rw [List.getElem?_append_left (by simpa using hd)]
      simp only [List.getElem?_map, List.getElem?_zipIdx, List.getElem?_eq_getElem hd,
        List.getElem?_range (show d < m + 1 by omega), Option.map_some]
      simp [List.getElem?_eq_getElem hd]
    · rw [List.getElem?_append_right (by simpa using hd)]
      simp only [List.length_map, List.length_zipIdx, List.getElem?_replicate, List.getElem?_map]
      by_cases hdm : d < m + 1
      · rw [if_pos (by omega), List.getElem?_range hdm]
        have hn : bs[d]? = none := List.getElem?_eq_none (by omega)
        have hn' : xs[d]? = none := List.getElem?_eq_none (by omega)
        simp only [hn, hn', Option.map_some, Option.getD_none, List.zip_nil_left, List.filter_nil,
          List.map_nil]
        have hz : pool.agg 𝕜 ([] : List R) = 0 := by
          cases pool <;> simp [Pooling.agg, aggAdd, aggMean]
        simp [zeroRows, hz]
      · rw [if_neg (by omega), List.getElem?_eq_none (by rw [List.length_range]; omega)]
        rfl
  refine ⟨_, _, key .sum, key .mean, by simp, by simp, ?_⟩
  intro d hd
  refine ⟨_, _, by rw [List.getElem?_map, List.getElem?_range (by omega)]; rfl,
    by rw [List.getElem?_map, List.getElem?_range (by omega)]; rfl, by simp, by simp, ?_⟩
  intro i hi mine hmine
  rw [List.getElem?_map, List.getElem?_map, List.getElem?_range (by omega)]
  simp only [Option.map_some]
  rw [← hmine]
  simp [Pooling.agg, aggAdd, aggMean]

/-- **C18** On a batch: the pooled rows of complex `i` are the sums (means) of its own rows. The
networks return one row per complex up to the last complex with a vertex: complexes without cells at
the end of the batch are dropped without a word. -/
theorem C18_trailing_empty_complexes_are_dropped
    (net : SparseNet R (SparseLevel 𝕜 R)) (hn : net.Fits)
    (front rest : List (Complex R L)) (last B : Complex R L) (mB : Nat)
    (hB : fromComplexList (front ++ last :: rest) mB = .ok B)
    (hr : ∀ comp ∈ front ++ last :: rest, comp.Ready)
    (hlast : 0 < last.cellsIn 0) (hrest : ∀ c ∈ rest, ∀ d, c.cellsIn d = 0) :
    ∃ preds, net.forward 𝕜 SparseLevel.forward B = .ok preds ∧ preds.length = front.length + 1 ∧
      (fromComplexList (front ++ [last]) mB >>= net.forward 𝕜 SparseLevel.forward) = .ok preds := by
  refine ⟨_, SparseNet.forward_batch (realises_sparse false) hn hB hr hlast hrest, by simp, ?_⟩
  have hr' : ∀ c ∈ front ++ [last], c.Ready := by
    intro c hc
    apply hr
    simp only [List.mem_append, List.mem_cons, List.not_mem_nil, or_false] at hc ⊢
    rcases hc with hc | hc
    · exact .inl hc
    · exact .inr (.inl hc)
  obtain ⟨B', hB'⟩ := batch_exists (by simp) hr' mB
  rw [hB', ok_bind]
  exact SparseNet.forward_batch (rest := []) (realises_sparse false) hn hB' hr' hlast (by simp)

/-! ### C19 -/

/-- The complex without its lower adjacencies. -/
def Complex.forgetLower (comp : Complex R L) : Complex R L :=
  { comp with cochains := comp.cochains.map fun (c : Cochain R L) =>
      { c with lowerIndex := none, sharedBoundaries := none, lowerOrient := none } }

theorem attr_forgetLower (comp : Complex R L) (d : Nat) {X : Type} (f : Cochain R L → Option X)
    (hf : ∀ c : Cochain R L,
      f { c with lowerIndex := none, sharedBoundaries := none, lowerOrient := none } = f c) :
    comp.forgetLower.attr d f = comp.attr d f := by
  unfold Complex.attr Complex.forgetLower
  dsimp only
  rw [List.getElem?_map]
  cases comp.cochains[d]? with
  | none => rfl
  | some c => simp [hf]

theorem sameButLower_forget (comp : Complex R L) : SameButLower comp.forgetLower.view comp.view where
  X := by
    funext d
    simp only [Complex.view]
    rw [attr_forgetLower comp d Cochain.x (fun _ => rfl)]
  up := by
    funext d
    simp only [Complex.view]
    rw [attr_forgetLower comp d Cochain.upperIndex (fun _ => rfl),
      attr_forgetLower comp d Cochain.sharedCoboundaries (fun _ => rfl)]
    simp [Complex.forgetLower]
  bnd := by
    funext d
    cases d with
    | zero => rfl
    | succ d =>
      simp only [Complex.view]
      rw [attr_forgetLower comp (d + 1) Cochain.boundaryIndex (fun _ => rfl)]

theorem predict_forget (net : SparseNet R (PPLevel 𝕜 R)) {v w : View R} (h : SameButLower v w) :
    net.predict 𝕜 PPLevel.rule w = net.predict 𝕜 PPLevel.rule v := by
  unfold SparseNet.predict
  congr 2
  apply List.map_congr_left
  intro d _
  rw [h.final]
  intro rules hrules d x u dn dn' b
  obtain ⟨levels, -, rfl⟩ := List.mem_map.mp hrules
  unfold rulesOf
  split <;> rfl

/-- **C19** CIN++ predicts the same for batches of complexes that differ only in their lower
adjacencies. -/
theorem C19_cinpp_ignores_lower_adjacency
    (net : SparseNet R (PPLevel 𝕜 R)) (hn : net.Fits) (cs cs' : List (Complex R L)) (hne : cs ≠ [])
    (hr : ∀ c ∈ cs, c.Ready) (hr' : ∀ c ∈ cs', c.Ready) (h0 : ∀ c ∈ cs, 0 < c.cellsIn 0)
    (h : cs'.map Complex.forgetLower = cs.map Complex.forgetLower) (mB : Nat) :
    ∃ preds, (fromComplexList cs mB >>= net.forward 𝕜 PPLevel.forward) = .ok preds ∧
      (fromComplexList cs' mB >>= net.forward 𝕜 PPLevel.forward) = .ok preds := by
  have hX : ∀ c : Complex R L, c.Ready → c.cellsIn 0 = (c.forgetLower.view.X 0).length := by
    intro c hc
    rw [← (sameButLower_forget c).X, ready_X_length hc]
  have h0' : ∀ c ∈ cs', 0 < c.cellsIn 0 := by
    intro c hc
    have hm : c.forgetLower ∈ cs'.map Complex.forgetLower := List.mem_map_of_mem hc
    rw [h] at hm
    obtain ⟨d, hd, hde⟩ := List.mem_map.mp hm
    rw [hX c (hr' c hc), ← hde, ← hX d (hr d hd)]
    exact h0 d hd
  have hne' : cs' ≠ [] := by
    rintro rfl
    apply hne
    simpa using h.symm
  refine ⟨_, SparseNet.forward_all (realises_pp false) hn hne hr h0 mB, ?_⟩
  rw [SparseNet.forward_all (realises_pp false) hn hne' hr' h0' mB, ok_inj]
  have key : ∀ ds : List (Complex R L), (ds.map fun c => net.predict 𝕜 PPLevel.rule (c.view.upTo mB)) =
      (ds.map Complex.forgetLower).map fun c => net.predict 𝕜 PPLevel.rule (c.view.upTo mB) := by
    intro ds
    rw [List.map_map]
    apply List.map_congr_left
    intro c _
    exact predict_forget net ((sameButLower_forget c).upTo mB)
  rw [key cs', key cs, h]

/-- **C19** In a CIN++ layer the part for lower messages is the zero row plus `(1 + eps)` times the
cell's own row, whatever the lower adjacency: in every successful run, row `c` of the output is the
combination of the upper part, of `update_down ((1 + eps₂) x_c)` and of the boundary part. -/
theorem C19_down_message_is_constant (l : PPLevel 𝕜 R) (p : MPParams R) (out : List R)
    (h : l.forward p = .ok out) :
    (∀ idx attr, l.forward { p with downIndex := idx, downAttr := attr } = .ok out) ∧
    ∃ (x ups bnds : List R), p.x = some x ∧ out.length = x.length ∧ ups.length = x.length ∧
      bnds.length = x.length ∧ ∀ (c : Nat) (r : R), x[c]? = some r → ∃ u b, ups[c]? = some u ∧
        bnds[c]? = some b ∧ out[c]? = some (l.combine u (l.updateDown (0 + (1 + l.eps2) • r)) b) := by
  refine ⟨fun idx attr => h, ?_⟩
  unfold PPLevel.forward at h
  obtain ⟨⟨up, down, bnd⟩, h1, h⟩ := bind_eq_ok.mp h
  obtain ⟨x, hx⟩ : ∃ x, p.x = some x := by
    cases hx : p.x with
    | none => rw [hx] at h1; simp [propagate] at h1
    | some x => exact ⟨x, rfl⟩
  have hdown : down = zeroRows x.length := by
    rw [hx] at h1
    unfold propagate at h1
    dsimp only at h1
    obtain ⟨_, -, h1⟩ := bind_eq_ok.mp h1
    obtain ⟨dn, hdn, h1⟩ := bind_eq_ok.mp h1
    obtain ⟨_, -, h1⟩ := bind_eq_ok.mp h1
    have hdn : dn = zeroRows x.length := by
      simp only [PPLevel.cfg, aggregateOrZero] at hdn
      simpa using hdn.symm
    simp only [pure_eq_ok, ok_inj, Prod.mk.injEq] at h1
    rw [← h1.2.1, hdn]
  rw [hx] at h
  dsimp only [Option.getD_some] at h
  obtain ⟨u, hu, h⟩ := bind_eq_ok.mp h
  obtain ⟨dn, hdn, h⟩ := bind_eq_ok.mp h
  obtain ⟨b, hb, h⟩ := bind_eq_ok.mp h
  obtain ⟨ud, hud, h⟩ := bind_eq_ok.mp h
  unfold addScaled zipRows at hu hdn hb
  unfold PPLevel.forward.zipRowsWith at hud h
  split at hu
  case isFalse => simp at hu
  split at hdn
  case isFalse => simp at hdn
  split at hb
  case isFalse => simp at hb
  split at hud
  case isFalse => simp at hud
  split at h
  case isFalse => simp at h
  rename_i hul hdl hbl hudl hl
  rw [ok_inj] at hu hdn hb hud h
  have lu : u.length = x.length := by rw [← hu]; simp; omega
  have lb : b.length = x.length := by rw [← hb]; simp; omega
  have ld : dn.length = x.length := by rw [← hdn]; simp; omega
  refine ⟨x, u.map l.updateUp, b.map l.updateBoundary, hx, ?_, by simpa using lu, by simpa using lb, ?_⟩
  · rw [← h, ← hud]; simp; omega
  · intro c r hc
    have hcl : c < x.length := by
      by_contra hh
      rw [List.getElem?_eq_none (by omega)] at hc
      simp at hc
    have hxr : x[c] = r := by
      have := List.getElem?_eq_getElem hcl
      rw [this] at hc
      simpa using hc
    refine ⟨l.updateUp u[c], l.updateBoundary b[c], by simp [lu, hcl], by simp [lb, hcl], ?_⟩
    simp only [hdown] at hdn
    have hdc : dn[c]? = some (0 + (1 + l.eps2) • r) := by
      rw [← hdn]
      simp [hcl, hxr, zeroRows]
    have huc : u[c]? = some u[c] := List.getElem?_eq_getElem (by omega)
    have hbc : b[c]? = some b[c] := List.getElem?_eq_getElem (by omega)
    rw [← h, ← hud]
    simp only [List.getElem?_zipWith, List.getElem?_map, hdc, huc, hbc, Option.map_some]

section Examples
open Fixtures

/-- A SparseCIN network with two layers; the readout is the mean over all dimensions. -/
def sparseNetQ : SparseNet ℚ (SparseLevel ℚ ℚ) where
  convs := [[sparseQ, sparseQ, sparseQ], [sparseQ, sparseQ, sparseQ]]
  readout := "mean"
  act x := max x 0
  lin1s := [fun x => x + 1, fun x => 2 * x, fun x => 3 - x]
  lin2 x := x + 5

/-- The same with jumping knowledge (the maximum over the layers). -/
def jumpNetQ : SparseNet ℚ (SparseLevel ℚ ℚ) :=
  { sparseNetQ with jump := some (fun l => l.foldl max 0), readoutDims := some [2, 0] }

/-- A CIN++ level with concrete maps. -/
def ppQ : PPLevel ℚ ℚ where
  msgUp := .withAttr (fun x a => x + 2 * a)
  msgDown := .withAttr (fun x a => x + a)
  msgBoundary x := 3 * x
  updateUp x := x + 1
  updateDown x := x - 4
  updateBoundary x := x * x
  combine u d b := u - d + b
  eps1 := 0
  eps2 := 1
  eps3 := 1 / 2

/-- A CIN++ network. -/
def ppNetQ : SparseNet ℚ (PPLevel ℚ ℚ) where
  convs := [[ppQ, ppQ, ppQ]]
  act x := max x 0
  lin1s := [fun x => x + 1, fun x => 2 * x, fun x => 3 - x]
  lin2 x := x + 5

/-- A CIN network. -/
def cinNetQ : CINNet ℚ (CINLevel ℚ ℚ) where
  convs := [[cinQ, cinQ, cinQ]]
  act x := max x 0
  lin1 x := 2 * x
  lin2 x := x + 5

theorem sparseNetQ_fits : sparseNetQ.Fits :=
  ⟨by simp [sparseNetQ], by simp [sparseNetQ], rfl, .inr rfl, .inl rfl, by decide⟩
theorem ppNetQ_fits : ppNetQ.Fits :=
  ⟨by simp [ppNetQ], by simp [ppNetQ], rfl, .inl rfl, .inl rfl, by decide⟩
theorem cinNetQ_fits : cinNetQ.Fits := ⟨by simp [cinNetQ], by simp [cinNetQ], .inl rfl⟩

/-- An empty complex. -/
def emptyQ : Complex ℚ Nat := { dimension := 0, cochains := [{ dim := 0, x := some [] }], y := none }

theorem emptyQ_ready : emptyQ.Ready :=
  ⟨validB_sound (by decide), by unfold Complex.Featured; decide, rfl⟩

/-- The house without lower adjacencies. -/
def houseNoLowerQ : Complex ℚ Nat := houseQ.forgetLower

example : jumpNetQ.Fits :=
  ⟨by simp [jumpNetQ, sparseNetQ], by simp [jumpNetQ, sparseNetQ], rfl, .inr rfl, .inl rfl, by decide⟩

example : (∀ c ∈ [segQ, dotsQ, houseQ], 0 < c.cellsIn 0) ∧
    ((fromComplexList [segQ, dotsQ, houseQ] 2 >>= cinNetQ.forward ℚ CINLevel.forward).toOption.map
      List.length) = some 3 := by
  constructor
  · decide
  · decide +kernel
/-- The hypothesis on vertices cannot be dropped: the empty complex at the end gets no row. -/
example : emptyQ.Ready ∧ (∀ d, emptyQ.cellsIn d = 0) ∧
    ((fromComplexList [segQ, dotsQ, emptyQ] 2 >>= ppNetQ.forward ℚ PPLevel.forward).toOption.map
      List.length) = some 2 := by
  refine ⟨emptyQ_ready, ?_, by decide +kernel⟩
  intro d
  cases d with
  | zero => rfl
  | succ d => rfl
/-- The same predictions in a batch and alone, and for the renumbered segment. -/
example : (fromComplexList [segQ, houseQ] 2 >>= ppNetQ.forward ℚ PPLevel.forward) =
      (do let a ← fromComplexList [segQ.relabel (swap01 segQ)] 2 >>= ppNetQ.forward ℚ PPLevel.forward
          let b ← fromComplexList [houseQ] 2 >>= ppNetQ.forward ℚ PPLevel.forward
          return a ++ b) := by decide +kernel
/-- Two complexes that differ in their lower adjacencies. -/
example : houseNoLowerQ.Ready ∧ (houseQ.attr 1 Cochain.lowerIndex).isSome ∧
    (houseNoLowerQ.attr 1 Cochain.lowerIndex).isNone ∧ houseNoLowerQ.forgetLower = houseQ.forgetLower := by
  refine ⟨⟨validB_sound (by decide), ?_, rfl⟩, rfl, rfl, rfl⟩
  unfold Complex.Featured
  decide
example : (fromComplexList [houseNoLowerQ] 2 >>= ppNetQ.forward ℚ PPLevel.forward) =
    (fromComplexList [houseQ] 2 >>= ppNetQ.forward ℚ PPLevel.forward) := by decide +kernel
/-- CIN does see the lower adjacency. -/
example : (fromComplexList [houseNoLowerQ] 2 >>= cinNetQ.forward ℚ CINLevel.forward) ≠
    (fromComplexList [houseQ] 2 >>= cinNetQ.forward ℚ CINLevel.forward) := by decide +kernel
/-- Pooling two complexes in one dimension. -/
example : poolComplex ℚ .mean { emptyQ with cochains := [{ dim := 0, batch := some [0, 0, 1] }] } 1
    [[1, 3, (5 : ℚ)]] = .ok [[2, 5], [0, 0]] := by decide +kernel

end Examples

end Verif
