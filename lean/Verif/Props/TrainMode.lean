import Verif.Lemmas.TrainMode
import Verif.Props.Models
import Verif.Props.Experiment
import Verif.Props.EmbedBatch

/-!
# C95: networks in training mode
-/

namespace Verif

section
variable {𝕜 R L : Type} [Field 𝕜] [AddCommMonoid R] [Module 𝕜 R]

/-- Both cases at once, for the two kinds of layers. -/
theorem train_cases {Lt Lv : Type} {train : Lt → MPParams R → Py (List R)} {isBatch : Lt → Bool}
    {freeze : Lt → List (View R) → Nat → Lv} {rule : Lv → Rule R} {level : Lv → MPParams R → Py (List R)}
    {needs : Lv → Prop} (ht : Trains train isBatch freeze rule) (hf : RowsOnly freeze)
    (hreal : Realises level rule needs false) {net : SparseNet R Lt} (hn : net.Fits)
    {cs : List (Complex R L)} (hne : cs ≠ []) (hr : ∀ c ∈ cs, c.Ready) (h0 : ∀ c ∈ cs, 0 < c.cellsIn 0)
    (mB : Nat) :
    (LonelyCell isBatch net cs mB → (fromComplexList cs mB >>= net.forward 𝕜 train) = .error .value) ∧
    (¬ LonelyCell isBatch net cs mB → (fromComplexList cs mB >>= net.forward 𝕜 train) =
      .ok (cs.map fun c => (net.frozen freeze rule (cs.map fun c => c.view.upTo mB)).predict 𝕜 rule
        (c.view.upTo mB))) := by
  obtain ⟨B, hB⟩ := batch_exists hne hr mB
  obtain ⟨h1, h2⟩ := SparseNet.forward_train (𝕜 := 𝕜) ht hf hreal hn hr hB
  have hiff : (∃ conv ∈ net.convs, OneRow isBatch B.view conv) ↔ LonelyCell isBatch net cs mB := by
    unfold LonelyCell
    simp only [oneRow_batch hr hB]
  rw [hB, ok_bind]
  constructor
  · intro h
    exact h1 (hiff.mpr h)
  · intro h
    rw [h2 fun conv hc ho => h (hiff.mp ⟨conv, hc, ho⟩)]
    have := SparseNet.forward_all (𝕜 := 𝕜) hreal (hn.frozen (freeze := freeze) (rule := rule)
      (cs.map fun c => c.view.upTo mB)) hne hr h0 mB
    rw [hB, ok_bind] at this
    exact this

/-- **C95** What SparseCIN computes for a batch in training mode: if some layer with batch normalisation gets a
single cell, an exception; otherwise, for each complex, what the network computes in evaluation mode when its
running statistics are those that the cells of all complexes of the batch have in each layer. -/
theorem C95_sparse_cin_in_training_mode (net : SparseNet R (SparseTrain 𝕜 R)) (hn : net.Fits)
    (cs : List (Complex R L)) (hne : cs ≠ []) (hr : ∀ c ∈ cs, c.Ready) (h0 : ∀ c ∈ cs, 0 < c.cellsIn 0)
    (mB : Nat) :
    (LonelyCell SparseTrain.isBatch net cs mB →
      (fromComplexList cs mB >>= net.forward 𝕜 SparseTrain.forward) = .error .value) ∧
    (¬ LonelyCell SparseTrain.isBatch net cs mB →
      (fromComplexList cs mB >>= net.forward 𝕜 SparseTrain.forward) =
        .ok (cs.map fun c => (net.frozen SparseTrain.freeze SparseLevel.rule
          (cs.map fun c => c.view.upTo mB)).predict 𝕜 SparseLevel.rule (c.view.upTo mB))) :=
  train_cases trains_sparse rowsOnly_sparse (realises_sparse false) hn hne hr h0 mB

/-- **C95** CIN++: likewise. -/
theorem C95_cinpp_in_training_mode (net : SparseNet R (PPTrain 𝕜 R)) (hn : net.Fits)
    (cs : List (Complex R L)) (hne : cs ≠ []) (hr : ∀ c ∈ cs, c.Ready) (h0 : ∀ c ∈ cs, 0 < c.cellsIn 0)
    (mB : Nat) :
    (LonelyCell PPTrain.isBatch net cs mB →
      (fromComplexList cs mB >>= net.forward 𝕜 PPTrain.forward) = .error .value) ∧
    (¬ LonelyCell PPTrain.isBatch net cs mB →
      (fromComplexList cs mB >>= net.forward 𝕜 PPTrain.forward) =
        .ok (cs.map fun c => (net.frozen PPTrain.freeze PPLevel.rule
          (cs.map fun c => c.view.upTo mB)).predict 𝕜 PPLevel.rule (c.view.upTo mB))) :=
  train_cases trains_pp rowsOnly_pp (realises_pp false) hn hne hr h0 mB

theorem not_lonely {Lt : Type} {isBatch : Lt → Bool} {net : SparseNet R Lt} {cs : List (Complex R L)}
    (hr : ∀ c ∈ cs, c.Ready) {mB n : Nat} {B : Complex R L} (hB : fromComplexList cs mB = .ok B)
    (hn : numSamples (.complexes B) = .ok n) (h2 : 2 ≤ n) : ¬ LonelyCell isBatch net cs mB := by
  rintro ⟨conv, -, d, l, -, -, hd, h1⟩
  by_cases hdB : d ≤ B.dimension
  · obtain ⟨k, hk, hiff⟩ := numSamples_complex (cellCounts_batch hB hr)
    rw [hn] at hk
    cases hk
    have := (hiff 2).mp h2 d hdB
    omega
  · have := batch_X_length hB hr hd
    rw [h1, view_X_none (List.getElem?_eq_none (by
      have := (batch_runs hB hr).len
      omega))] at this
    simp at this

/-- **C95** The batches that an epoch does not skip never make a network raise: they have at least two cells in
each of their dimensions, so that batch normalisation has at least two rows everywhere. -/
theorem C95_trained_batches_run (sparse : SparseNet R (SparseTrain 𝕜 R)) (hs : sparse.Fits)
    (pp : SparseNet R (PPTrain 𝕜 R)) (hp : pp.Fits)
    (cs : List (Complex R L)) (hne : cs ≠ []) (hr : ∀ c ∈ cs, c.Ready) (h0 : ∀ c ∈ cs, 0 < c.cellsIn 0)
    (mB : Nat) (B : Complex R L) (hB : fromComplexList cs mB = .ok B) (n : Nat)
    (hn : numSamples (.complexes B) = .ok n) (h2 : 2 ≤ n) :
    (∃ preds, sparse.forward 𝕜 SparseTrain.forward B = .ok preds ∧ preds.length = cs.length) ∧
    ∃ preds, pp.forward 𝕜 PPTrain.forward B = .ok preds ∧ preds.length = cs.length := by
  have h3 := (C95_sparse_cin_in_training_mode sparse hs cs hne hr h0 mB).2 (not_lonely hr hB hn h2)
  have h4 := (C95_cinpp_in_training_mode pp hp cs hne hr h0 mB).2 (not_lonely hr hB hn h2)
  rw [hB, ok_bind] at h3 h4
  exact ⟨⟨_, h3, by simp⟩, _, h4, by simp⟩

theorem train_shuffled {Lt Lv : Type} {train : Lt → MPParams R → Py (List R)} {isBatch : Lt → Bool}
    {freeze : Lt → List (View R) → Nat → Lv} {rule : Lv → Rule R} {level : Lv → MPParams R → Py (List R)}
    {needs : Lv → Prop} (ht : Trains train isBatch freeze rule) (hf : RowsOnly freeze)
    (hreal : Realises level rule needs false) {net : SparseNet R Lt} (hn : net.Fits)
    {cs ds cs' : List (Complex R L)} (hne : cs ≠ []) (hr : ∀ c ∈ cs, c.Ready) (hr' : ∀ c ∈ cs', c.Ready)
    (h0 : ∀ c ∈ cs, 0 < c.cellsIn 0) (hp : cs.Perm ds) (hren : RenumberedBatch ds cs') (mB : Nat) :
    ((fromComplexList cs mB >>= net.forward 𝕜 train) = .error .value ∧
      (fromComplexList cs' mB >>= net.forward 𝕜 train) = .error .value) ∨
    ∃ g : Complex R L → R, (fromComplexList cs mB >>= net.forward 𝕜 train) = .ok (cs.map g) ∧
      (fromComplexList cs' mB >>= net.forward 𝕜 train) = .ok (ds.map g) := by
  have hrd : ∀ c ∈ ds, c.Ready := fun c hc => hr c (hp.mem_iff.mpr hc)
  have hned : ds ≠ [] := by
    rintro rfl
    exact hne hp.eq_nil
  have h0d : ∀ c ∈ ds, 0 < c.cellsIn 0 := fun c hc => h0 c (hp.mem_iff.mpr hc)
  have h0' := cells_of_renumbered hren hrd hr' h0d
  have hne' := ne_of_renumbered hren hned
  obtain ⟨h1, h2⟩ := train_cases (𝕜 := 𝕜) ht hf hreal hn hne hr h0 mB
  obtain ⟨h1', h2'⟩ := train_cases (𝕜 := 𝕜) ht hf hreal hn hne' hr' h0' mB
  have hsum : ∀ d, (cs'.map (Complex.cellsIn d)).sum = (cs.map (Complex.cellsIn d)).sum := by
    intro d
    rw [(hp.map _).sum_eq]
    clear h1 h2 h1' h2' hne' h0' h0d hned hp
    induction hren with
    | nil => rfl
    | @cons c c' ds cs' hc _ ih =>
      obtain ⟨φ, hφ⟩ := hc
      rw [List.map_cons, List.map_cons, List.sum_cons, List.sum_cons,
        ih (fun c h => hr' c (by simp [h])) (fun c h => hrd c (by simp [h])),
        ← ready_X_length (hr' c' (by simp)), hφ.size, ready_X_length (hrd c (by simp))]
  have hlon : LonelyCell isBatch net cs' mB ↔ LonelyCell isBatch net cs mB := by
    unfold LonelyCell
    simp only [hsum]
  by_cases hl : LonelyCell isBatch net cs mB
  · exact .inl ⟨h1 hl, h1' (hlon.mpr hl)⟩
  · refine .inr ⟨_, h2 hl, ?_⟩
    rw [h2' fun h => hl (hlon.mp h)]
    have hal : Alike net.maxDim (cs'.map fun c => c.view.upTo mB) (cs.map fun c => c.view.upTo mB) := by
      refine Alike.trans (vs' := ds.map fun c => c.view.upTo mB) ?_ ?_
      · refine alike_relabels ?_ ?_
        · rw [List.forall₂_map_left_iff, List.forall₂_map_right_iff]
          exact hren.imp fun c c' ⟨φ, h⟩ => ⟨φ, h.upTo mB⟩
        · intro v hv
          obtain ⟨c, hc, rfl⟩ := List.mem_map.mp hv
          exact upTo_inRange (ready_inRange (hrd c hc)) mB
      · exact alike_perm (hp.symm.map _)
    have hfr : net.frozen freeze rule (cs'.map fun c => c.view.upTo mB) =
        net.frozen freeze rule (cs.map fun c => c.view.upTo mB) := by
      unfold SparseNet.frozen
      rw [freezeConvs_alike hf _ hal]
    rw [hfr, ok_inj]
    generalize net.frozen freeze rule (cs.map fun c => c.view.upTo mB) = fz
    exact map_eq_of_renumbered hren hrd fun v w φ hφ hv => fz.predict_relabel hφ hv

/-- **C95** In training mode too, the predictions for a batch do not depend on the order of the complexes and on
the numbering of their cells: the loader may shuffle, each complex gets the same prediction. -/
theorem C95_training_does_not_depend_on_numbering (sparse : SparseNet R (SparseTrain 𝕜 R)) (hs : sparse.Fits)
    (pp : SparseNet R (PPTrain 𝕜 R)) (hpp : pp.Fits)
    (cs ds cs' : List (Complex R L)) (hne : cs ≠ []) (hr : ∀ c ∈ cs, c.Ready) (hr' : ∀ c ∈ cs', c.Ready)
    (h0 : ∀ c ∈ cs, 0 < c.cellsIn 0) (hp : cs.Perm ds) (hren : RenumberedBatch ds cs') (mB : Nat) :
    (((fromComplexList cs mB >>= sparse.forward 𝕜 SparseTrain.forward) = .error .value ∧
        (fromComplexList cs' mB >>= sparse.forward 𝕜 SparseTrain.forward) = .error .value) ∨
      ∃ g : Complex R L → R,
        (fromComplexList cs mB >>= sparse.forward 𝕜 SparseTrain.forward) = .ok (cs.map g) ∧
        (fromComplexList cs' mB >>= sparse.forward 𝕜 SparseTrain.forward) = .ok (ds.map g)) ∧
    (((fromComplexList cs mB >>= pp.forward 𝕜 PPTrain.forward) = .error .value ∧
        (fromComplexList cs' mB >>= pp.forward 𝕜 PPTrain.forward) = .error .value) ∨
      ∃ g : Complex R L → R,
        (fromComplexList cs mB >>= pp.forward 𝕜 PPTrain.forward) = .ok (cs.map g) ∧
        (fromComplexList cs' mB >>= pp.forward 𝕜 PPTrain.forward) = .ok (ds.map g)) :=
  ⟨train_shuffled trains_sparse rowsOnly_sparse (realises_sparse false) hs hne hr hr' h0 hp hren mB,
    train_shuffled trains_pp rowsOnly_pp (realises_pp false) hpp hne hr hr' h0 hp hren mB⟩

theorem NormNet.freeze_rowwise {n : NormNet R} (h : n.isBatch = false) (rows : List R) :
    n.freeze 𝕜 rows = n.eval := by
  cases n with
  | rowwise f => rfl
  | batch _ _ _ _ => cases h

theorem UpdateNet.freeze_rowwise {u : UpdateNet R} (h : u.isBatch = false) (rows : List R) :
    u.freeze 𝕜 rows = u.eval := by
  simp only [UpdateNet.isBatch, Bool.or_eq_false_iff] at h
  funext x
  simp only [UpdateNet.freeze, NormNet.freeze_rowwise h.1, NormNet.freeze_rowwise h.2, UpdateNet.eval]

theorem SparseTrain.freeze_rowwise {l : SparseTrain 𝕜 R} (h : l.isBatch = false) (vs : List (View R)) (d : Nat) :
    l.freeze vs d = l.eval := by
  simp only [SparseTrain.isBatch, Bool.or_eq_false_iff] at h
  simp only [SparseTrain.freeze, UpdateNet.freeze_rowwise h.1.1, UpdateNet.freeze_rowwise h.1.2,
    NormNet.freeze_rowwise h.2, SparseTrain.eval]

theorem PPTrain.freeze_rowwise {l : PPTrain 𝕜 R} (h : l.isBatch = false) (vs : List (View R)) (d : Nat) :
    l.freeze vs d = l.eval := by
  simp only [PPTrain.isBatch, Bool.or_eq_false_iff] at h
  simp only [PPTrain.freeze, UpdateNet.freeze_rowwise h.1.1.1, UpdateNet.freeze_rowwise h.1.1.2,
    UpdateNet.freeze_rowwise h.1.2, NormNet.freeze_rowwise h.2, PPTrain.eval]

theorem frozen_rowwise {Lt Lv : Type} {isBatch : Lt → Bool}
    {freeze : Lt → List (View R) → Nat → Lv} {rule : Lv → Rule R} {eval : Lt → Lv}
    (he : ∀ l, isBatch l = false → ∀ vs d, freeze l vs d = eval l) {net : SparseNet R Lt}
    (h : ∀ conv ∈ net.convs, ∀ l ∈ conv, isBatch l = false) (vs : List (View R)) :
    net.frozen freeze rule vs = net.evalMode eval := by
  have key : ∀ (convs : List (List Lt)) (vs : List (View R)), (∀ conv ∈ convs, ∀ l ∈ conv, isBatch l = false) →
      freezeConvs freeze rule net.maxDim vs convs = convs.map (List.map eval) := by
    intro convs
    induction convs with
    | nil => intros; rfl
    | cons conv convs ih =>
      intro vs h
      have e : (conv.mapIdx fun d l => freeze l vs d) = conv.map eval := by
        apply List.ext_getElem?
        intro d
        rw [List.getElem?_mapIdx, List.getElem?_map]
        cases hd : conv[d]? with
        | none => rfl
        | some l =>
          rw [Option.map_some, Option.map_some, he l (h conv (by simp) l (List.mem_of_getElem? hd))]
      simp only [freezeConvs, e, List.map_cons]
      rw [ih _ fun c hc => h c (by simp [hc])]
  unfold SparseNet.frozen SparseNet.evalMode
  rw [key _ _ h]

/-- **C95** With the normalisations `id` and `ln`, training mode and evaluation mode agree on every batch, also on
those that the epoch skips: what C16 says about predictions then holds in training mode too. -/
theorem C95_without_batch_normalisation (sparse : SparseNet R (SparseTrain 𝕜 R)) (hs : sparse.Fits)
    (hs' : ∀ conv ∈ sparse.convs, ∀ l ∈ conv, l.isBatch = false)
    (pp : SparseNet R (PPTrain 𝕜 R)) (hp : pp.Fits) (hp' : ∀ conv ∈ pp.convs, ∀ l ∈ conv, l.isBatch = false)
    (cs : List (Complex R L)) (hne : cs ≠ []) (hr : ∀ c ∈ cs, c.Ready) (h0 : ∀ c ∈ cs, 0 < c.cellsIn 0)
    (mB : Nat) :
    (∃ preds, (fromComplexList cs mB >>= sparse.forward 𝕜 SparseTrain.forward) = .ok preds ∧
      (fromComplexList cs mB >>= (sparse.evalMode SparseTrain.eval).forward 𝕜 SparseLevel.forward) = .ok preds) ∧
    ∃ preds, (fromComplexList cs mB >>= pp.forward 𝕜 PPTrain.forward) = .ok preds ∧
      (fromComplexList cs mB >>= (pp.evalMode PPTrain.eval).forward 𝕜 PPLevel.forward) = .ok preds := by
  constructor
  · refine ⟨_, (C95_sparse_cin_in_training_mode sparse hs cs hne hr h0 mB).2 ?_, ?_⟩
    · rintro ⟨conv, hc, d, l, hl, hb, -⟩
      rw [hs' conv hc l (List.mem_of_getElem? hl)] at hb
      cases hb
    · have hfit := hs.frozen (freeze := SparseTrain.freeze) (rule := SparseLevel.rule) (cs.map fun c => c.view.upTo mB)
      rw [frozen_rowwise (fun l h => SparseTrain.freeze_rowwise h) hs'] at hfit ⊢
      exact SparseNet.forward_all (realises_sparse false) hfit hne hr h0 mB
  · refine ⟨_, (C95_cinpp_in_training_mode pp hp cs hne hr h0 mB).2 ?_, ?_⟩
    · rintro ⟨conv, hc, d, l, hl, hb, -⟩
      rw [hp' conv hc l (List.mem_of_getElem? hl)] at hb
      cases hb
    · have hfit := hp.frozen (freeze := PPTrain.freeze) (rule := PPLevel.rule) (cs.map fun c => c.view.upTo mB)
      rw [frozen_rowwise (fun l h => PPTrain.freeze_rowwise h) hp'] at hfit ⊢
      exact SparseNet.forward_all (realises_pp false) hfit hne hr h0 mB

end

section
variable {𝕜 R L : Type} [Field 𝕜] [AddCommGroup R] [Module 𝕜 R]

theorem embed_train_cases {Lt Lv : Type} {train : Lt → MPParams R → Py (List R)} {isBatch : Lt → Bool}
    {freeze : Lt → List (View R) → Nat → Lv} {rule : Lv → Rule R} {level : Lv → MPParams R → Py (List R)}
    {needs : Lv → Prop} (ht : Trains train isBatch freeze rule) (hf : RowsOnly freeze)
    (hreal : Realises level rule needs false) {net : EmbedNet R Lt} (hn : net.net.Fits)
    (hred : ∀ a b : List R, a.Perm b → net.init.reduce a = net.init.reduce b)
    {cs : List (Complex R L)} (hne : cs ≠ []) (h : ∀ c ∈ cs, net.init.Takes c) (hu : UniformFeatures cs)
    {mB : Nat} (hm : ∀ c ∈ cs, min c.dimension mB ≤ net.net.maxDim) :
    (LonelyCell isBatch net.net cs mB → (fromComplexList cs mB >>= net.forward 𝕜 train) = .error .value) ∧
    (¬ LonelyCell isBatch net.net cs mB → (fromComplexList cs mB >>= net.forward 𝕜 train) =
      .ok (cs.map fun c => (net.net.frozen freeze rule (cs.map fun c => (net.init.embed c).view.upTo mB)).predict 𝕜
        rule ((net.init.embed c).view.upTo mB))) := by
  have hcells : ∀ c ∈ cs, ∀ d, (net.init.embed c).cellsIn d = c.cellsIn d := fun c hc d =>
    (EmbedInit.embed_refeatured (h c hc).embeds).cellsIn d
  have hlon : LonelyCell isBatch net.net (cs.map net.init.embed) mB ↔ LonelyCell isBatch net.net cs mB := by
    have e : ∀ d, ((cs.map net.init.embed).map (Complex.cellsIn d)) = cs.map (Complex.cellsIn d) := by
      intro d
      rw [List.map_map]
      exact List.map_congr_left fun c hc => hcells c hc d
    unfold LonelyCell
    simp only [e]
  rw [EmbedNet.forward_embed train hred hne h hu hm, ← hlon]
  have := train_cases (𝕜 := 𝕜) ht hf hreal hn (cs := cs.map net.init.embed) (by simpa using hne) (by
    intro c hc
    obtain ⟨e, he, rfl⟩ := List.mem_map.mp hc
    exact EmbedInit.embed_ready (h e he).embeds) (by
    intro c hc
    obtain ⟨e, he, rfl⟩ := List.mem_map.mp hc
    rw [hcells e he]
    exact (h e he).cells 0 (Nat.zero_le _)) mB
  simp only [List.map_map] at this
  exact this

/-- **C95** The embedding networks: likewise, with the rows after the initial layer, which has no
normalisation. -/
theorem C95_embedding_networks_in_training_mode (sparse : EmbedNet R (SparseTrain 𝕜 R)) (hs : sparse.net.Fits)
    (hsr : ∀ a b : List R, a.Perm b → sparse.init.reduce a = sparse.init.reduce b)
    (pp : EmbedNet R (PPTrain 𝕜 R)) (hp : pp.net.Fits)
    (hpr : ∀ a b : List R, a.Perm b → pp.init.reduce a = pp.init.reduce b)
    (cs : List (Complex R L)) (hne : cs ≠ []) (h : ∀ c ∈ cs, sparse.init.Takes c) (h' : ∀ c ∈ cs, pp.init.Takes c)
    (hu : UniformFeatures cs) (mB : Nat) (hm : ∀ c ∈ cs, min c.dimension mB ≤ sparse.net.maxDim)
    (hm' : ∀ c ∈ cs, min c.dimension mB ≤ pp.net.maxDim) :
    ((LonelyCell SparseTrain.isBatch sparse.net cs mB →
        (fromComplexList cs mB >>= sparse.forward 𝕜 SparseTrain.forward) = .error .value) ∧
      (¬ LonelyCell SparseTrain.isBatch sparse.net cs mB →
        (fromComplexList cs mB >>= sparse.forward 𝕜 SparseTrain.forward) =
          .ok (cs.map fun c => (sparse.net.frozen SparseTrain.freeze SparseLevel.rule
            (cs.map fun c => (sparse.init.embed c).view.upTo mB)).predict 𝕜 SparseLevel.rule
              ((sparse.init.embed c).view.upTo mB)))) ∧
    ((LonelyCell PPTrain.isBatch pp.net cs mB →
        (fromComplexList cs mB >>= pp.forward 𝕜 PPTrain.forward) = .error .value) ∧
      (¬ LonelyCell PPTrain.isBatch pp.net cs mB →
        (fromComplexList cs mB >>= pp.forward 𝕜 PPTrain.forward) =
          .ok (cs.map fun c => (pp.net.frozen PPTrain.freeze PPLevel.rule
            (cs.map fun c => (pp.init.embed c).view.upTo mB)).predict 𝕜 PPLevel.rule
              ((pp.init.embed c).view.upTo mB)))) :=
  ⟨embed_train_cases trains_sparse rowsOnly_sparse (realises_sparse false) hs hsr hne h hu hm,
    embed_train_cases trains_pp rowsOnly_pp (realises_pp false) hp hpr hne h' hu hm'⟩

end

/-! ### Examples -/

section Examples
open Fixtures

/-- Batch normalisation of one number: subtract the mean, add the variance. -/
def normQ : NormNet ℚ := .batch (fun x m => (x - m) * (x - m)) (fun m v x => x - m + v) 0 1

/-- An update network. -/
def updateQ (n : NormNet ℚ) : UpdateNet ℚ := ⟨fun x => x + 1, n, fun x => x, fun x => 2 * x, n, id⟩

/-- A SparseCIN level with concrete maps. -/
def trainQ (n : NormNet ℚ) : SparseTrain ℚ ℚ where
  msgUp := .plain id
  msgBoundary := id
  updateUp := updateQ n
  updateBoundary := updateQ n
  lin a b := a + 2 * b
  norm := n
  act x := x
  eps1 := 0
  eps2 := 1

/-- A CIN++ level with concrete maps. -/
def trainPPQ (n : NormNet ℚ) : PPTrain ℚ ℚ where
  msgUp := .plain id
  msgDown := .plain id
  msgBoundary := id
  updateUp := updateQ n
  updateDown := updateQ n
  updateBoundary := updateQ n
  lin a d b := a + 2 * b - d
  norm := n
  act x := x
  eps1 := 0
  eps2 := 1
  eps3 := 0

/-- A SparseCIN network. -/
def trainNetQ (n : NormNet ℚ) : SparseNet ℚ (SparseTrain ℚ ℚ) where
  convs := [[trainQ n, trainQ n, trainQ n]]
  act x := x
  lin1s := [fun x => x + 1, fun x => 2 * x, fun x => 3 - x]
  lin2 x := x + 5

/-- A CIN++ network. -/
def trainNetPPQ (n : NormNet ℚ) : SparseNet ℚ (PPTrain ℚ ℚ) where
  convs := [[trainPPQ n, trainPPQ n, trainPPQ n]]
  act x := x
  lin1s := [fun x => x + 1, fun x => 2 * x, fun x => 3 - x]
  lin2 x := x + 5

theorem trainNetQ_fits (n : NormNet ℚ) : (trainNetQ n).Fits :=
  ⟨by simp [trainNetQ], by simp [trainNetQ], rfl, .inl rfl, .inl rfl, by simp [SparseNet.dims, trainNetQ]⟩

theorem trainNetPPQ_fits (n : NormNet ℚ) : (trainNetPPQ n).Fits :=
  ⟨by simp [trainNetPPQ], by simp [trainNetPPQ], rfl, .inl rfl, .inl rfl, by simp [SparseNet.dims, trainNetPPQ]⟩




/-- **C95** (negative) With batch normalisation, what a complex gets in training mode depends on the rest of the
batch. -/
theorem C95_training_depends_on_the_batch :
    ∃ (net : SparseNet ℚ (SparseTrain ℚ ℚ)) (a b : Complex ℚ Nat) (p q r : ℚ), net.Fits ∧ a.Ready ∧ b.Ready ∧
      (fromComplexList [a, a] 1 >>= net.forward ℚ SparseTrain.forward) = .ok [p, p] ∧
      (fromComplexList [a, b] 1 >>= net.forward ℚ SparseTrain.forward) = .ok [q, r] ∧ p ≠ q := by
  refine ⟨trainNetQ normQ, houseQ, dotsQ, 127507 / 15, 5012117 / 147, 545191 / 49, trainNetQ_fits _, houseQ_ready,
    dotsQ_ready, ?_, ?_, ?_⟩
  · decide +kernel
  · decide +kernel
  · decide +kernel

/-- Two houses have two triangles, the house and the segment together one: the network runs on the first batch and
raises on the second, which an epoch skips. -/
example : ¬ LonelyCell SparseTrain.isBatch (trainNetQ normQ) [houseQ, houseQ] 2 ∧
    LonelyCell SparseTrain.isBatch (trainNetQ normQ) [houseQ, segQ] 2 ∧
    (fromComplexList [houseQ, segQ] 2 >>= (trainNetQ normQ).forward ℚ SparseTrain.forward) = .error .value ∧
    ((fromComplexList [houseQ, houseQ] 2).toOption.map fun B => numSamples (.complexes B)) = some (.ok 2) ∧
    ((fromComplexList [houseQ, segQ] 2).toOption.map fun B => numSamples (.complexes B)) = some (.ok 1) := by
  have hone : LonelyCell SparseTrain.isBatch (trainNetQ normQ) [houseQ, segQ] 2 :=
    ⟨_, by simp [trainNetQ]; rfl, 2, trainQ normQ, rfl, rfl, by decide, by decide⟩
  refine ⟨?_, hone, ?_, by decide, by decide⟩
  · rintro ⟨conv, hc, d, l, -, -, hd, h1⟩
    have : ∀ d ∈ List.range 3, ([houseQ, houseQ].map (Complex.cellsIn d)).sum ≠ 1 := by decide
    exact this d (List.mem_range.mpr (by omega)) h1
  · exact (C95_sparse_cin_in_training_mode _ (trainNetQ_fits _) _ (by simp)
      (by simpa using ⟨houseQ_ready, segQ_ready⟩) (by decide) 2).1 hone

/-- CIN++: both cases. -/
example : (fromComplexList [houseQ, houseQ] 2 >>= (trainNetPPQ normQ).forward ℚ PPTrain.forward) =
      .ok [24129 / 5, 24129 / 5] ∧
    (fromComplexList [houseQ, segQ] 2 >>= (trainNetPPQ normQ).forward ℚ PPTrain.forward) = .error .value := by
  constructor <;> decide +kernel

/-- The house and the dots, and the dots and the renumbered house. -/
example := C95_training_does_not_depend_on_numbering (trainNetQ normQ) (trainNetQ_fits _) (trainNetPPQ normQ)
  (trainNetPPQ_fits _) [houseQ, dotsQ] [dotsQ, houseQ] [dotsQ, houseQ.relabel (swap01 houseQ)] (by simp)
  (by simpa using ⟨houseQ_ready, dotsQ_ready⟩)
  (by simpa using ⟨dotsQ_ready, houseQ_ready.relabel (swap01_permutes houseQ)⟩) (by decide)
  (List.Perm.swap _ _ _)
  (.cons ⟨fun _ k => k, ⟨fun _ => rfl, fun _ _ _ _ _ h => h, fun _ _ _ => rfl, by simp, by simp, by simp⟩⟩
    (.cons ⟨_, houseQ_ready.relabels (swap01_permutes houseQ)⟩ .nil)) 1

/-- The predictions of the batch that the theorem permutes. -/
example : (fromComplexList [houseQ, dotsQ] 1 >>= (trainNetQ normQ).forward ℚ SparseTrain.forward) =
      .ok [5012117 / 147, 545191 / 49] ∧
    (fromComplexList [dotsQ, houseQ.relabel (swap01 houseQ)] 1 >>=
      (trainNetQ normQ).forward ℚ SparseTrain.forward) = .ok [545191 / 49, 5012117 / 147] := by
  constructor <;> decide +kernel

/-- Without batch normalisation a single triangle does no harm. -/
example := C95_without_batch_normalisation (trainNetQ (.rowwise id)) (trainNetQ_fits _) (by
    simp only [trainNetQ, forall_eq, List.mem_cons, List.not_mem_nil, or_false, or_self]
    rfl) (trainNetPPQ (.rowwise id)) (trainNetPPQ_fits _) (by
    simp only [trainNetPPQ, forall_eq, List.mem_cons, List.not_mem_nil, or_false, or_self]
    rfl) [houseQ, segQ] (by simp) (by simpa using ⟨houseQ_ready, segQ_ready⟩) (by decide) 2

/-- In evaluation mode the running statistics are used. -/
example : (fromComplexList [houseQ, segQ] 2 >>=
    ((trainNetQ normQ).evalMode SparseTrain.eval).forward ℚ SparseLevel.forward).isOk = true := by decide +kernel

/-- Two houses without features on the triangles, through an embedding network. -/
example := C95_embedding_networks_in_training_mode (⟨initQ, trainNetQ normQ⟩ : EmbedNet ℚ (SparseTrain ℚ ℚ))
  (trainNetQ_fits _) initQ_reduce (⟨initQ, trainNetPPQ normQ⟩ : EmbedNet ℚ (PPTrain ℚ ℚ)) (trainNetPPQ_fits _)
  initQ_reduce [bareQ, bareQ] (by simp) (by simpa using bareQ_takes) (by simpa using bareQ_takes)
  (uniform_of_dec (by decide) (by decide)) 2 (by decide) (by decide)

end Examples

end Verif
