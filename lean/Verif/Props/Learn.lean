import Verif.Lemmas.Learn
import Verif.Props.TrainMode
import Verif.Props.RingIso

/-!
# C98: experiments with networks
-/

namespace Verif

section
variable {𝕜 R L S : Type} [Field 𝕜] [AddCommMonoid R] [Module 𝕜 R]

/-- What is used about a kind of layers. -/
structure KindOf {Lt Lv : Type} (kind : LayerKind R Lt Lv) (isBatch : Lt → Bool)
    (freeze : Lt → List (View R) → Nat → Lv) (rule : Lv → Rule R) (needs : Lv → Prop)
    (moved : Lt → List (View R) → Nat → Lt) : Prop where
  trains : Trains kind.forward isBatch freeze rule
  rows : RowsOnly freeze
  real : Realises kind.level rule needs false
  moves : Moves kind.after isBatch moved
  movedRows : RowsOnly moved

theorem kind_sparse (mo : Momentum R) : KindOf (sparseKind (𝕜 := 𝕜) mo) SparseTrain.isBatch SparseTrain.freeze
    SparseLevel.rule (fun l => l.msgUp.NeedsAttr) (SparseTrain.moved mo) :=
  ⟨trains_sparse, rowsOnly_sparse, realises_sparse false, moves_sparse mo, rowsOnly_moved_sparse mo⟩

theorem kind_pp (mo : Momentum R) : KindOf (ppKind (𝕜 := 𝕜) mo) PPTrain.isBatch PPTrain.freeze
    PPLevel.rule (fun l => l.msgUp.NeedsAttr) (PPTrain.moved mo) :=
  ⟨trains_pp, rowsOnly_pp, realises_pp false, moves_pp mo, rowsOnly_moved_pp mo⟩

omit [AddCommMonoid R] in
theorem SparseNet.Fits.evalMode {Lt Lv : Type} {net : SparseNet R Lt} (h : net.Fits) (eval : Lt → Lv) :
    (net.evalMode eval).Fits := by
  refine ⟨?_, ?_, h.lin1s, h.readout, h.final, h.dims⟩
  · simpa [SparseNet.evalMode] using h.layers
  · intro conv hc
    obtain ⟨c, hc', rfl⟩ := List.mem_map.mp hc
    rw [List.length_map]
    exact h.levels c hc'

/-- What a network makes of two batches that have the same complexes up to the order and the numbering of cells. -/
theorem two_batches {Lt Lv : Type} {kind : LayerKind R Lt Lv} {isBatch : Lt → Bool}
    {freeze : Lt → List (View R) → Nat → Lv} {rule : Lv → Rule R} {needs : Lv → Prop}
    {moved : Lt → List (View R) → Nat → Lt} (hk : KindOf kind isBatch freeze rule needs moved)
    {cs ds cs' : List (Complex R L)} (hne : cs ≠ []) (hr : ∀ c ∈ cs, c.Ready) (hr' : ∀ c ∈ cs', c.Ready)
    (h0 : ∀ c ∈ cs, 0 < c.cellsIn 0) (hp : cs.Perm ds) (hs : List.Forall₂ Renumbered ds cs') (mB : Nat) :
    ∃ B B', fromComplexList cs mB = .ok B ∧ fromComplexList cs' mB = .ok B' ∧
      numSamples (.complexes B') = numSamples (.complexes B) ∧
      (∀ net : SparseNet R Lt, net.Fits →
        (net.forward 𝕜 kind.forward B = .error .value ∧ net.forward 𝕜 kind.forward B' = .error .value) ∨
        ((∃ g : Complex R L → R, net.forward 𝕜 kind.forward B = .ok (cs.map g) ∧
          net.forward 𝕜 kind.forward B' = .ok (ds.map g)) ∧
          net.after kind.forward kind.after B' = net.after kind.forward kind.after B)) ∧
      ∀ net : SparseNet R Lt, net.Fits →
        (net.evalMode kind.eval).forward 𝕜 kind.level B =
          .ok (cs.map fun c => (net.evalMode kind.eval).predict 𝕜 rule (c.view.upTo mB)) ∧
        (net.evalMode kind.eval).forward 𝕜 kind.level B' =
          .ok (ds.map fun c => (net.evalMode kind.eval).predict 𝕜 rule (c.view.upTo mB)) := by
  have hren : RenumberedBatch ds cs' := hs.imp fun c c' h => h.2.2
  have hrd : ∀ c ∈ ds, c.Ready := fun c hc => hr c (hp.mem_iff.mpr hc)
  have hned : ds ≠ [] := by
    rintro rfl
    exact hne hp.eq_nil
  have h0d : ∀ c ∈ ds, 0 < c.cellsIn 0 := fun c hc => h0 c (hp.mem_iff.mpr hc)
  have h0' := cells_of_renumbered hren hrd hr' h0d
  have hne' := ne_of_renumbered hren hned
  obtain ⟨B, hB⟩ := batch_exists hne hr mB
  obtain ⟨B', hB'⟩ := batch_exists hne' hr' mB
  have hsum : ∀ d, (cs'.map (Complex.cellsIn d)).sum = (cs.map (Complex.cellsIn d)).sum := by
    intro d
    rw [(hp.map _).sum_eq]
    clear hB hB' hne' h0' h0d hned hp hren
    induction hs with
    | nil => rfl
    | @cons c c' ds cs' hc _ ih =>
      obtain ⟨-, -, φ, hφ⟩ := hc
      rw [List.map_cons, List.map_cons, List.sum_cons, List.sum_cons,
        ih (fun c h => hr' c (by simp [h])) (fun c h => hrd c (by simp [h])),
        ← ready_X_length (hr' c' (by simp)), hφ.size, ready_X_length (hrd c (by simp))]
  have hdim : B'.dimension = B.dimension := by
    obtain ⟨k, hk, e⟩ := (fromComplexList_inv hB).dimension
    obtain ⟨k', hk', e'⟩ := (fromComplexList_inv hB').dimension
    have h1 : cs'.map Complex.dimension = ds.map Complex.dimension := by
      clear hB hB' hne' h0' h0d hned hp hren hsum hk hk' hrd hr'
      induction hs with
      | nil => rfl
      | cons hc _ ih => rw [List.map_cons, List.map_cons, hc.2.1, ih]
    rw [h1] at hk'
    rw [List.max?_eq_some_iff] at hk hk'
    have := hk.2 k' ((hp.map _).mem_iff.mpr hk'.1)
    have := hk'.2 k ((hp.map _).mem_iff.mp hk.1)
    rw [e, e']
    omega
  have hnum : numSamples (.complexes B') = numSamples (.complexes B) := by
    obtain ⟨n, h1, h2⟩ := numSamples_complex (cellCounts_batch hB hr)
    obtain ⟨n', h1', h2'⟩ := numSamples_complex (cellCounts_batch hB' hr')
    rw [h1, h1', ok_inj]
    simp only [hsum, hdim] at h2'
    have h3 := (h2' n).mpr ((h2 n).mp le_rfl)
    have h4 := (h2 n').mpr ((h2' n').mp le_rfl)
    omega
  refine ⟨B, B', hB, hB', hnum, ?_, ?_⟩
  · intro net hn
    have hlon : LonelyCell isBatch net cs' mB ↔ LonelyCell isBatch net cs mB := by
      unfold LonelyCell
      simp only [hsum]
    rcases train_shuffled (𝕜 := 𝕜) hk.trains hk.rows hk.real hn hne hr hr' h0 hp hren mB with h | ⟨g, hg, hg'⟩
    · rw [hB, hB', ok_bind, ok_bind] at h
      exact .inl h
    · have hno : ¬ LonelyCell isBatch net cs mB := by
        intro hl
        rw [(train_cases (𝕜 := 𝕜) hk.trains hk.rows hk.real hn hne hr h0 mB).1 hl] at hg
        cases hg
      rw [hB, ok_bind] at hg
      rw [hB', ok_bind] at hg'
      refine .inr ⟨⟨g, hg, hg'⟩, ?_⟩
      rw [SparseNet.after_batch hk.trains hk.rows hk.moves hk.movedRows hn hr hB hno,
        SparseNet.after_batch hk.trains hk.rows hk.moves hk.movedRows hn hr' hB' fun h => hno (hlon.mp h), ok_inj]
      have hal : Alike net.maxDim (cs'.map fun c => c.view.upTo mB) (cs.map fun c => c.view.upTo mB) := by
        refine Alike.trans (vs' := ds.map fun c => c.view.upTo mB) ?_ ?_
        · refine alike_relabels ?_ ?_
          · rw [List.forall₂_map_left_iff, List.forall₂_map_right_iff]
            exact hren.imp fun c c' ⟨φ, h⟩ => ⟨φ, h.upTo mB⟩
          · intro v hv
            obtain ⟨c, hc, rfl⟩ := List.mem_map.mp hv
            exact upTo_inRange (ready_inRange (hrd c hc)) mB
        · exact alike_perm (hp.symm.map _)
      unfold SparseNet.moved
      rw [movedConvs_alike hk.rows hk.movedRows _ hal]
  · intro net hn
    have hfit := hn.evalMode kind.eval
    have h1 := SparseNet.forward_all (𝕜 := 𝕜) hk.real hfit hne hr h0 mB
    have h2 := SparseNet.forward_all (𝕜 := 𝕜) hk.real hfit hne' hr' h0' mB
    rw [hB, ok_bind] at h1
    rw [hB', ok_bind] at h2
    refine ⟨h1, ?_⟩
    rw [h2, ok_inj]
    generalize net.evalMode kind.eval = fz
    exact map_eq_of_renumbered hren hrd fun v w φ hφ hv => fz.predict_relabel hφ hv


/-! ### The batches of two loaders -/

/-- Both raise the same exception, or both give related values. -/
inductive RelPy {A B : Type} (r : A → B → Prop) : Py A → Py B → Prop
  | ok {a b} : r a b → RelPy r (.ok a) (.ok b)
  | error (e) : RelPy r (.error e) (.error e)

theorem mapE_rel {A A' B B' : Type} {f : A → Py B} {f' : A' → Py B'} {r : B → B' → Prop} {l : List A} {l' : List A'}
    (h : List.Forall₂ (fun a a' => RelPy r (f a) (f' a')) l l') :
    RelPy (List.Forall₂ r) (mapE f l) (mapE f' l') := by
  induction h with
  | nil => exact .ok .nil
  | @cons a a' l l' h _ ih =>
    rw [mapE_cons, mapE_cons]
    revert h ih
    generalize f a = x
    generalize f' a' = x'
    generalize mapE f l = y
    generalize mapE f' l' = y'
    intro h ih
    cases h with
    | error e => exact .error e
    | ok h =>
      cases ih with
      | error e => exact .error e
      | ok ih => exact .ok (.cons h ih)

theorem foldE_rel {A A' T : Type} {f : T → A → Py T} {f' : T → A' → Py T} {l : List A} {l' : List A'}
    (h : List.Forall₂ (fun a a' => ∀ s, f s a = f' s a') l l') (s : T) : foldE f s l = foldE f' s l' := by
  induction h generalizing s with
  | nil => rfl
  | @cons a a' l l' h _ ih =>
    simp only [foldE, h s]
    cases f' s a' with
    | error e => rfl
    | ok s' => exact ih s'

theorem getAt_all {A : Type} (data : List A) (ids : List Nat) :
    ((∀ i ∈ ids, i < data.length) ∧ mapE (getAt data) ids = .ok (ids.filterMap (data[·]?))) ∨
    ((∃ i ∈ ids, data.length ≤ i) ∧ mapE (getAt data) ids = .error .index) := by
  induction ids with
  | nil => exact .inl ⟨by simp, rfl⟩
  | cons i ids ih =>
    rw [mapE_cons]
    by_cases hi : i < data.length
    · have e : getAt data i = .ok data[i] := by
        unfold getAt
        rw [List.getElem?_eq_getElem hi]
      rw [e, ok_bind]
      rcases ih with ⟨h1, h2⟩ | ⟨⟨j, hj, hlt⟩, h2⟩
      · refine .inl ⟨by simpa using ⟨hi, h1⟩, ?_⟩
        rw [h2, List.filterMap_cons_some (List.getElem?_eq_getElem hi)]
        rfl
      · exact .inr ⟨⟨j, by simp [hj], hlt⟩, by rw [h2]; rfl⟩
    · have e : getAt data i = .error .index := by
        unfold getAt
        rw [List.getElem?_eq_none (by omega)]
      rw [e]
      exact .inr ⟨⟨i, by simp, by omega⟩, rfl⟩

/-- Two batches made of the same complexes, in some order and up to numbering. -/
def PairedBatch (Q : List (Complex R L) → List (Complex R L) → Prop) (mB : Nat) (data data' : List (Complex R L))
    (B B' : Complex R L) : Prop :=
  ∃ cs ds cs', cs ≠ [] ∧ (∀ c ∈ cs, c ∈ data) ∧ (∀ c ∈ cs', c ∈ data') ∧ cs.Perm ds ∧ Q cs ds ∧
    List.Forall₂ Renumbered ds cs' ∧ fromComplexList cs mB = .ok B ∧ fromComplexList cs' mB = .ok B'

omit [AddCommMonoid R] in
theorem same_filterMap {data data' : List (Complex R L)} (h : List.Forall₂ Renumbered data data') (ids : List Nat) :
    List.Forall₂ Renumbered (ids.filterMap (data[·]?)) (ids.filterMap (data'[·]?)) := by
  induction ids with
  | nil => exact .nil
  | cons i ids ih =>
    by_cases hi : i < data.length
    · have hi' : i < data'.length := h.length_eq ▸ hi
      rw [List.filterMap_cons_some (List.getElem?_eq_getElem hi), List.filterMap_cons_some (List.getElem?_eq_getElem hi')]
      exact .cons (h.get hi hi') ih
    · rw [List.filterMap_cons_none (List.getElem?_eq_none (by omega)),
        List.filterMap_cons_none (List.getElem?_eq_none (by rw [← h.length_eq]; omega))]
      exact ih

theorem paired_batches {Q : List (Complex R L) → List (Complex R L) → Prop} {mB : Nat}
    {data data' : List (Complex R L)} (h : List.Forall₂ Renumbered data data')
    (hr : ∀ c ∈ data, c.Ready) (hr' : ∀ c ∈ data', c.Ready) {ids ids' : List (List Nat)}
    (hids : List.Forall₂ (fun a b => a.Perm b ∧ Q (a.filterMap (data[·]?)) (b.filterMap (data[·]?))) ids ids') :
    RelPy (List.Forall₂ (PairedBatch Q mB data data')) (labBatches mB data ids) (labBatches mB data' ids') := by
  unfold labBatches
  refine mapE_rel (hids.imp ?_)
  rintro a b ⟨hab, hq⟩
  have hs := same_filterMap h b
  rcases getAt_all data a with ⟨h1, h2⟩ | ⟨⟨i, hi, hlt⟩, h2⟩
  · rcases getAt_all data' b with ⟨h1', h2'⟩ | ⟨⟨i, hi, hlt⟩, h2'⟩
    · rw [h2, h2', ok_bind, ok_bind]
      have hp : (a.filterMap (data[·]?)).Perm (b.filterMap (data[·]?)) := hab.filterMap _
      generalize hcs : a.filterMap (data[·]?) = cs at *
      generalize hds : b.filterMap (data[·]?) = ds at *
      generalize hcs' : b.filterMap (data'[·]?) = cs' at *
      have hin : ∀ c ∈ cs, c ∈ data := by
        intro c hc
        rw [← hcs, List.mem_filterMap] at hc
        obtain ⟨i, -, hi⟩ := hc
        exact List.mem_of_getElem? hi
      have hin' : ∀ c ∈ cs', c ∈ data' := by
        intro c hc
        rw [← hcs', List.mem_filterMap] at hc
        obtain ⟨i, -, hi⟩ := hc
        exact List.mem_of_getElem? hi
      by_cases hne : cs = []
      · subst hne
        have : ds = [] := hp.nil_eq.symm
        subst this
        cases hs
        exact .error _
      · have hne' : cs' ≠ [] := by
          intro he
          subst he
          cases hs
          exact hne hp.eq_nil
        obtain ⟨B, hB⟩ := batch_exists hne (fun c hc => hr c (hin c hc)) mB
        obtain ⟨B', hB'⟩ := batch_exists hne' (fun c hc => hr' c (hin' c hc)) mB
        rw [hB, hB']
        exact .ok ⟨cs, ds, cs', hne, hin, hin', hp, hq, hs, hB, hB'⟩
    · have := h1 i (hab.mem_iff.mpr hi)
      rw [h.length_eq] at this
      omega
  · rcases getAt_all data' b with ⟨h1', h2'⟩ | ⟨-, h2'⟩
    · have := h1' i (hab.mem_iff.mp hi)
      rw [← h.length_eq] at this
      omega
    · rw [h2, h2']
      exact .error _

/-! ### Training and evaluation on two loaders -/

section
variable {Lt Lv : Type} {kind : LayerKind R Lt Lv} {isBatch : Lt → Bool}
  {freeze : Lt → List (View R) → Nat → Lv} {rule : Lv → Rule R} {needs : Lv → Prop}
  {moved : Lt → List (View R) → Nat → Lt}

/-- The loss does not depend on which of the two batches it is computed, if predictions and labels fit. -/
def LossAgrees (Q : List (Complex R L) → List (Complex R L) → Prop) (loss : List R → List L → Py ℚ)
    (data : List (Complex R L)) : Prop :=
  ∀ cs ds : List (Complex R L), (∀ c ∈ cs, c ∈ data) → Q cs ds → cs.Perm ds → ∀ g : Complex R L → R,
    (∀ c ∈ cs, c.y.isSome) →
    loss (cs.map g) (cs.flatMap fun c => c.y.getD []) = loss (ds.map g) (ds.flatMap fun c => c.y.getD [])

omit [AddCommMonoid R] in
theorem targets_batch {cs : List (Complex R L)} {mB : Nat} {B : Complex R L} (hB : fromComplexList cs mB = .ok B) :
    ((∀ c ∈ cs, c.y.isSome) → B.targets = .ok (cs.flatMap fun c => c.y.getD [])) ∧
    (¬ (∀ c ∈ cs, c.y.isSome) → B.targets = .error .attribute) := by
  obtain ⟨-, -, -, -, -, h1, h2⟩ := C06_batch_labels_dimension_size cs mB B hB
  constructor
  · intro h
    unfold Complex.targets
    rw [h1 h]
  · intro h
    push Not at h
    obtain ⟨c, hc, hy⟩ := h
    unfold Complex.targets
    rw [h2 ⟨c, hc, by simpa using hy⟩]

omit [AddCommMonoid R] in
theorem labels_of_same {ds cs' : List (Complex R L)} (h : List.Forall₂ Renumbered ds cs') :
    ((∀ c ∈ cs', c.y.isSome) ↔ ∀ c ∈ ds, c.y.isSome) ∧
    (cs'.flatMap fun c => c.y.getD []) = ds.flatMap fun c => c.y.getD [] := by
  induction h with
  | nil => simp
  | @cons c c' ds cs' hc _ ih =>
    constructor
    · rw [List.forall_mem_cons, List.forall_mem_cons, ih.1, hc.1]
    · rw [List.flatMap_cons, List.flatMap_cons, ih.2, hc.1]

theorem two_steps (hk : KindOf kind isBatch freeze rule needs moved)
    {Q : List (Complex R L) → List (Complex R L) → Prop} {mB : Nat} {data data' : List (Complex R L)}
    (hr : ∀ c ∈ data, c.Ready) (hr' : ∀ c ∈ data', c.Ready) (h0 : ∀ c ∈ data, 0 < c.cellsIn 0)
    {lab : Lab R L S Lt} (hfit : ∀ s, (lab.net s).Fits) (hloss : LossAgrees Q lab.loss data)
    {B B' : Complex R L} (h : PairedBatch Q mB data data' B B') (acc : S × List ℚ) :
    trainBatch (labStep 𝕜 kind lab) acc (.complexes B) = trainBatch (labStep 𝕜 kind lab) acc (.complexes B') := by
  obtain ⟨cs, ds, cs', hne, hin, hin', hp, hq, hs, hB, hB'⟩ := h
  obtain ⟨B1, B2, e1, e2, hnum, htr, -⟩ := two_batches (𝕜 := 𝕜) hk hne (fun c hc => hr c (hin c hc))
    (fun c hc => hr' c (hin' c hc)) (fun c hc => h0 c (hin c hc)) hp hs mB
  rw [hB] at e1
  rw [hB'] at e2
  cases e1
  cases e2
  have hl : ∀ s, lossOn 𝕜 kind.forward lab.loss (lab.net s) B = lossOn 𝕜 kind.forward lab.loss (lab.net s) B' := by
    intro s
    unfold lossOn
    rcases htr (lab.net s) (hfit s) with ⟨h1, h2⟩ | ⟨⟨g, h1, h2⟩, -⟩
    · rw [h1, h2]; rfl
    · rw [h1, h2, ok_bind, ok_bind]
      by_cases hy : ∀ c ∈ cs, c.y.isSome
      · have hy' : ∀ c ∈ cs', c.y.isSome :=
          (labels_of_same hs).1.mpr fun c hc => hy c (hp.mem_iff.mpr hc)
        rw [(targets_batch hB).1 hy, (targets_batch hB').1 hy', ok_bind, ok_bind, (labels_of_same hs).2]
        exact hloss cs ds hin hq hp g hy
      · have hy' : ¬ ∀ c ∈ cs', c.y.isSome := by
          rw [(labels_of_same hs).1]
          exact fun h => hy fun c hc => h c (hp.mem_iff.mp hc)
        rw [(targets_batch hB).2 hy, (targets_batch hB').2 hy']
        rfl
  have hstep : labStep 𝕜 kind lab acc.1 (.complexes B) = labStep 𝕜 kind lab acc.1 (.complexes B') := by
    simp only [labStep, hl]
    rcases htr (lab.net acc.1) (hfit acc.1) with ⟨-, h2⟩ | ⟨-, h2⟩
    · have : lossOn 𝕜 kind.forward lab.loss (lab.net acc.1) B' = .error .value := by
        unfold lossOn
        rw [h2]
        rfl
      rw [this]
      rfl
    · rw [h2]
  unfold trainBatch
  rw [hnum, hstep]

theorem two_trainings (hk : KindOf kind isBatch freeze rule needs moved)
    {Q : List (Complex R L) → List (Complex R L) → Prop} {data data' : List (Complex R L)}
    (hsame : List.Forall₂ Renumbered data data')
    (hr : ∀ c ∈ data, c.Ready) (hr' : ∀ c ∈ data', c.Ready) (h0 : ∀ c ∈ data, 0 < c.cellsIn 0)
    {lab : Lab R L S Lt} (hfit : ∀ s, (lab.net s).Fits) (hloss : LossAgrees Q lab.loss data)
    {ids ids' : List (List Nat)}
    (hids : List.Forall₂ (fun a b => a.Perm b ∧ Q (a.filterMap (data[·]?)) (b.filterMap (data[·]?))) ids ids') (s : S) :
    (labBatches lab.maxDim data ids >>= fun bs => train lab.task (labStep 𝕜 kind lab) s (bs.map .complexes)) =
    (labBatches lab.maxDim data' ids' >>= fun bs => train lab.task (labStep 𝕜 kind lab) s (bs.map .complexes)) := by
  have h := paired_batches (Q := Q) (mB := lab.maxDim) hsame hr hr' hids
  revert h
  generalize labBatches lab.maxDim data ids = x
  generalize labBatches lab.maxDim data' ids' = x'
  intro h
  cases h with
  | error e => rfl
  | @ok bs bs' h =>
    rw [ok_bind, ok_bind]
    have : foldE (trainBatch (labStep 𝕜 kind lab)) (s, []) (bs.map .complexes) =
        foldE (trainBatch (labStep 𝕜 kind lab)) (s, []) (bs'.map .complexes) := by
      refine foldE_rel ?_ _
      rw [List.forall₂_map_left_iff, List.forall₂_map_right_iff]
      exact h.imp fun B B' hb acc => two_steps hk hr hr' h0 hfit hloss hb acc
    unfold train
    rw [this]

theorem foldE_relPy {A A' T T' : Type} {f : T → A → Py T} {f' : T' → A' → Py T'} {r : T → T' → Prop}
    {l : List A} {l' : List A'}
    (h : List.Forall₂ (fun a a' => ∀ s s', r s s' → RelPy r (f s a) (f' s' a')) l l') {s : T} {s' : T'} (hs : r s s') :
    RelPy r (foldE f s l) (foldE f' s' l') := by
  induction h generalizing s s' with
  | nil => exact .ok hs
  | @cons a a' l l' h _ ih =>
    simp only [foldE]
    have := h s s' hs
    revert this
    generalize f s a = x
    generalize f' s' a' = x'
    intro this
    cases this with
    | error e => exact .error e
    | ok h2 => exact ih h2

/-- The labels of some complexes. -/
def labelsOf (cs : List (Complex R L)) : List L := cs.flatMap fun c => c.y.getD []

/-- The score does not depend on the order that `Q` leaves open. -/
def MetricAgrees (Q : List (Complex R L) → List (Complex R L) → Prop)
    (metric : List R → Option (List L) → Py (Option ℚ)) (data : List (Complex R L)) : Prop :=
  ∀ (css dss : List (List (Complex R L))) (g : Complex R L → R),
    List.Forall₂ (fun cs ds => cs.Perm ds ∧ Q cs ds ∧ ∀ c ∈ cs, c ∈ data) css dss →
    metric (css.map (List.map g)).flatten none = metric (dss.map (List.map g)).flatten none ∧
    ((∀ cs ∈ css, ∀ c ∈ cs, c.y.isSome) →
      metric (css.map (List.map g)).flatten (some (css.map labelsOf).flatten) =
      metric (dss.map (List.map g)).flatten (some (dss.map labelsOf).flatten))

theorem two_evaluations (hk : KindOf kind isBatch freeze rule needs moved)
    {Q : List (Complex R L) → List (Complex R L) → Prop} {data data' : List (Complex R L)}
    (hsame : List.Forall₂ Renumbered data data')
    (hr : ∀ c ∈ data, c.Ready) (hr' : ∀ c ∈ data', c.Ready) (h0 : ∀ c ∈ data, 0 < c.cellsIn 0)
    {lab : Lab R L S Lt} (hfit : ∀ s, (lab.net s).Fits) (hloss : LossAgrees Q lab.loss data)
    (hmetric : MetricAgrees Q lab.metric data) {ids ids' : List (List Nat)}
    (hids : List.Forall₂ (fun a b => a.Perm b ∧ Q (a.filterMap (data[·]?)) (b.filterMap (data[·]?))) ids ids') (s : S) :
    (labBatches lab.maxDim data ids >>= fun bs => evalModel lab.task (((lab.net s).evalMode kind.eval).forward 𝕜 kind.level)
      Complex.targets lab.loss lab.metric bs >>= fun r => pure r.1) =
    (labBatches lab.maxDim data' ids' >>= fun bs => evalModel lab.task
      (((lab.net s).evalMode kind.eval).forward 𝕜 kind.level) Complex.targets lab.loss lab.metric bs >>= fun r => pure r.1) := by
  have h := paired_batches (Q := Q) (mB := lab.maxDim) hsame hr hr' hids
  revert h
  generalize labBatches lab.maxDim data ids = x
  generalize labBatches lab.maxDim data' ids' = x'
  intro h
  cases h with
  | error e => rfl
  | @ok bs bs' h =>
    rw [ok_bind, ok_bind]
    let g : Complex R L → R := fun c => ((lab.net s).evalMode kind.eval).predict 𝕜 rule (c.view.upTo lab.maxDim)
    let r : List (List L) × List (List R) × List ℚ → List (List L) × List (List R) × List ℚ → Prop :=
      fun a a' => ∃ css dss : List (List (Complex R L)),
        List.Forall₂ (fun cs ds => cs.Perm ds ∧ Q cs ds ∧ ∀ c ∈ cs, c ∈ data) css dss ∧
        a.2.1 = css.map (List.map g) ∧ a'.2.1 = dss.map (List.map g) ∧ a.2.2 = a'.2.2 ∧
        ((lab.task = .isomorphism ∧ a.1 = [] ∧ a'.1 = []) ∨
         (lab.task ≠ .isomorphism ∧ a.1 = css.map labelsOf ∧ a'.1 = dss.map labelsOf ∧
           ∀ cs ∈ css, ∀ c ∈ cs, c.y.isSome))
    have hfold : RelPy r
        (foldE (evalBatch lab.task (((lab.net s).evalMode kind.eval).forward 𝕜 kind.level) Complex.targets lab.loss)
          ([], [], []) bs)
        (foldE (evalBatch lab.task (((lab.net s).evalMode kind.eval).forward 𝕜 kind.level) Complex.targets lab.loss)
          ([], [], []) bs') := by
      refine foldE_relPy (h.imp ?_) ?_
      · intro B B' hb acc acc' hacc
        obtain ⟨cs, ds, cs', hne, hin, hin', hp, hq, hs, hB, hB'⟩ := hb
        obtain ⟨B1, B2, e1, e2, -, -, hev⟩ := two_batches (𝕜 := 𝕜) hk hne (fun c hc => hr c (hin c hc))
          (fun c hc => hr' c (hin' c hc)) (fun c hc => h0 c (hin c hc)) hp hs lab.maxDim
        rw [hB] at e1
        rw [hB'] at e2
        cases e1
        cases e2
        obtain ⟨f1, f2⟩ := hev (lab.net s) (hfit s)
        change _ = Except.ok (cs.map g) at f1
        change _ = Except.ok (ds.map g) at f2
        unfold evalBatch
        rw [f1, f2, ok_bind, ok_bind]
        obtain ⟨css, dss, hf, a1, a2, a3, a4⟩ := hacc
        have hf' : List.Forall₂ (fun cs ds => cs.Perm ds ∧ Q cs ds ∧ ∀ c ∈ cs, c ∈ data) (css ++ [cs]) (dss ++ [ds]) :=
          List.rel_append hf (.cons ⟨hp, hq, hin⟩ .nil)
        by_cases htask : lab.task = .isomorphism
        · rw [htask]
          refine .ok ⟨css ++ [cs], dss ++ [ds], hf', by simp [a1], by simp [a2], by simpa using a3, ?_⟩
          rcases a4 with a4 | a4
          · exact .inl ⟨htask, by simpa using a4.2.1, by simpa using a4.2.2⟩
          · exact absurd htask a4.1
        · rcases a4 with a4 | a4
          · exact absurd a4.1 htask
          by_cases hy : ∀ c ∈ cs, c.y.isSome
          · have hy' : ∀ c ∈ cs', c.y.isSome :=
              (labels_of_same hs).1.mpr fun c hc => hy c (hp.mem_iff.mpr hc)
            have t1 : B.targets = .ok (labelsOf cs) := (targets_batch hB).1 hy
            have t2 : B'.targets = .ok (labelsOf ds) := by
              rw [(targets_batch hB').1 hy', (labels_of_same hs).2]
              rfl
            have hl : lab.loss (cs.map g) (labelsOf cs) = lab.loss (ds.map g) (labelsOf ds) :=
              hloss cs ds hin hq hp g hy
            by_cases ho : lab.task = .other
            · rw [ho]
              simp only [evalTargets]
              rw [t1, t2]
              exact .error _
            · have he : ∀ (B : Complex R L) pred, evalTargets lab.task Complex.targets lab.loss B pred =
                  (Complex.targets B >>= fun t => lab.loss pred t >>= fun l => pure ([t], [l])) := by
                intro B pred
                revert htask ho
                cases lab.task <;> intro h1 h2 <;> first | rfl | exact absurd rfl h1 | exact absurd rfl h2
              rw [he, he, t1, t2, ok_bind, ok_bind, hl]
              cases lab.loss (ds.map g) (labelsOf ds) with
              | error e => exact .error e
              | ok l =>
                refine .ok ⟨css ++ [cs], dss ++ [ds], hf', by simp [a1], by simp [a2], by simp [a3], .inr ⟨htask, ?_, ?_, ?_⟩⟩
                · simp [a4.2.1]
                · simp [a4.2.2.1]
                · intro c hc
                  rcases List.mem_append.mp hc with hc | hc
                  · exact a4.2.2.2 c hc
                  · rw [List.mem_singleton.mp hc]; exact hy
          · have hy' : ¬ ∀ c ∈ cs', c.y.isSome := by
              rw [(labels_of_same hs).1]
              exact fun h => hy fun c hc => h c (hp.mem_iff.mp hc)
            have he : ∀ (B : Complex R L) pred, B.targets = .error .attribute →
                evalTargets lab.task Complex.targets lab.loss B pred = .error .attribute := by
              intro B pred ht
              revert htask
              unfold evalTargets
              cases lab.task <;> intro h1 <;> first | exact absurd rfl h1 | (simp only [ht]; rfl)
            rw [he _ _ ((targets_batch hB).2 hy), he _ _ ((targets_batch hB').2 hy')]
            exact .error _
      · refine ⟨[], [], .nil, rfl, rfl, rfl, ?_⟩
        by_cases htask : lab.task = .isomorphism
        · exact .inl ⟨htask, rfl, rfl⟩
        · exact .inr ⟨htask, rfl, rfl, by simp⟩
    unfold evalModel
    revert hfold
    generalize foldE _ _ bs = y
    generalize foldE _ _ bs' = y'
    intro hfold
    cases hfold with
    | error e => rfl
    | @ok a a' hr =>
      obtain ⟨css, dss, hf, a1, a2, a3, a4⟩ := hr
      rw [ok_bind, ok_bind, a1, a2]
      have hm := hmetric css dss g hf
      have hnil : css = [] ↔ dss = [] := by
        rw [← List.length_eq_zero_iff, ← List.length_eq_zero_iff, hf.length_eq]
      by_cases hc : css = []
      · have hd := hnil.mp hc
        subst hc hd
        rfl
      · have c1 : catRows (css.map (List.map g)) = .ok (css.map (List.map g)).flatten := by
          unfold catRows
          rw [if_neg (by simpa using hc)]
        have c2 : catRows (dss.map (List.map g)) = .ok (dss.map (List.map g)).flatten := by
          unfold catRows
          rw [if_neg (by simpa using fun h => hc (hnil.mpr h))]
        rw [c1, c2, ok_bind, ok_bind]
        have e : lab.metric (css.map (List.map g)).flatten (if a.1 = [] then none else some a.1.flatten) =
            lab.metric (dss.map (List.map g)).flatten (if a'.1 = [] then none else some a'.1.flatten) := by
          rcases a4 with a4 | a4
          · rw [if_pos a4.2.1, if_pos a4.2.2]
            exact hm.1
          · rw [a4.2.1, a4.2.2.1, if_neg (by simpa using hc), if_neg (by simpa using fun h => hc (hnil.mpr h))]
            exact hm.2 a4.2.2.2
        rw [e]
        cases lab.metric (dss.map (List.map g)).flatten (if a'.1 = [] then none else some a'.1.flatten) with
        | error e => rfl
        | ok v => rfl

/-- The whole experiment, with orders that `Q` allows. -/
theorem two_experiments (hk : KindOf kind isBatch freeze rule needs moved)
    {Q : List (Complex R L) → List (Complex R L) → Prop} {data data' : Split → List (Complex R L)}
    (hsame : ∀ split, List.Forall₂ Renumbered (data split) (data' split))
    (hr : ∀ split, ∀ c ∈ data split, c.Ready) (hr' : ∀ split, ∀ c ∈ data' split, c.Ready)
    (h0 : ∀ split, ∀ c ∈ data split, 0 < c.cellsIn 0)
    {lab : Lab R L S Lt} (hfit : ∀ s, (lab.net s).Fits) (hloss : ∀ split, LossAgrees Q lab.loss (data split))
    (hmetric : ∀ split, MetricAgrees Q lab.metric (data split)) {order' : Split → S → List (List Nat)}
    (horder : ∀ split s, List.Forall₂ (fun a b => a.Perm b ∧
      Q (a.filterMap ((data split)[·]?)) (b.filterMap ((data split)[·]?))) (lab.order split s) (order' split s)) :
    lab.trial 𝕜 kind data = { lab with order := order' }.trial 𝕜 kind data' := by
  have h1 : labTrain 𝕜 kind lab data = labTrain 𝕜 kind { lab with order := order' } data' := by
    funext s
    exact two_trainings hk (hsame .train) (hr .train) (hr' .train) (h0 .train) hfit (hloss .train) (horder .train s) s
  have h2 : labEval 𝕜 kind lab data = labEval 𝕜 kind { lab with order := order' } data' := by
    funext split s
    exact two_evaluations hk (hsame split) (hr split) (hr' split) (h0 split) hfit (hloss split) (hmetric split)
      (horder split s) s
  unfold Lab.trial
  rw [h1, h2]

theorem experiment_numbering (hk : KindOf kind isBatch freeze rule needs moved)
    {data data' : Split → List (Complex R L)}
    (hsame : ∀ split, List.Forall₂ Renumbered (data split) (data' split))
    (hr : ∀ split, ∀ c ∈ data split, c.Ready) (hr' : ∀ split, ∀ c ∈ data' split, c.Ready)
    (h0 : ∀ split, ∀ c ∈ data split, 0 < c.cellsIn 0) {lab : Lab R L S Lt} (hfit : ∀ s, (lab.net s).Fits) :
    lab.trial 𝕜 kind data = lab.trial 𝕜 kind data' := by
  refine two_experiments (Q := Eq) (order' := lab.order) hk hsame hr hr' h0 hfit ?_ ?_ ?_
  · intro split cs ds _ h _ g _
    rw [h]
  · intro split css dss g h
    have : css = dss := List.forall₂_eq_eq_eq ▸ h.imp fun a b hab => hab.2.1
    rw [this]
    exact ⟨rfl, fun _ => rfl⟩
  · intro split s
    exact List.forall₂_same.mpr fun a _ => ⟨.refl _, rfl⟩

omit [AddCommMonoid R] in
theorem one_label {cs : List (Complex R L)} {label : Complex R L → L} (h : ∀ c ∈ cs, c.y = some [label c]) :
    (cs.flatMap fun c => c.y.getD []) = cs.map label := by
  induction cs with
  | nil => rfl
  | cons c cs ih =>
    rw [List.flatMap_cons, ih fun c hc => h c (by simp [hc]), h c (by simp)]
    rfl

omit [AddCommMonoid R] in
theorem OrderFree.map {T : Type} {f : List R → List L → T} (hf : OrderFree f) {cs ds : List (Complex R L)}
    (hp : cs.Perm ds) (g : Complex R L → R) (label : Complex R L → L) :
    f (cs.map g) (cs.map label) = f (ds.map g) (ds.map label) := by
  have := hf (cs.map fun c => (g c, label c)) (ds.map fun c => (g c, label c)) (hp.map _)
  simpa [List.map_map, Function.comp_def] using this

theorem experiment_order [Nonempty L] (hk : KindOf kind isBatch freeze rule needs moved)
    {data : Split → List (Complex R L)}
    (hr : ∀ split, ∀ c ∈ data split, c.Ready) (h0 : ∀ split, ∀ c ∈ data split, 0 < c.cellsIn 0)
    (hy : ∀ split, ∀ c ∈ data split, ∃ l, c.y = some [l])
    {lab : Lab R L S Lt} (hfit : ∀ s, (lab.net s).Fits) (hloss : OrderFree lab.loss)
    (hmetric : OrderFree fun p l => lab.metric p (some l))
    (hnone : ∀ ps qs : List R, ps.Perm qs → lab.metric ps none = lab.metric qs none)
    {order' : Split → S → List (List Nat)}
    (horder : ∀ split s, List.Forall₂ List.Perm (lab.order split s) (order' split s)) :
    lab.trial 𝕜 kind data = { lab with order := order' }.trial 𝕜 kind data := by
  have hsame : ∀ c : Complex R L, Renumbered c c := fun c =>
    ⟨rfl, rfl, fun _ k => k, ⟨fun _ => rfl, fun _ _ _ _ _ h => h, fun _ _ _ => rfl, by simp, by simp, by simp⟩⟩
  have hlab : ∀ split, ∃ label : Complex R L → L, ∀ c ∈ data split, c.y = some [label c] := by
    intro split
    choose! label hl using hy split
    exact ⟨label, hl⟩
  refine two_experiments (Q := fun _ _ => True) hk (fun split => List.forall₂_same.mpr fun c _ => hsame c) hr hr h0 hfit
    ?_ ?_ ?_
  · intro split cs ds hin _ hp g _
    obtain ⟨label, hl⟩ := hlab split
    rw [one_label fun c hc => hl c (hin c hc), one_label fun c hc => hl c (hin c (hp.mem_iff.mpr hc))]
    exact hloss.map hp g label
  · intro split css dss g h
    obtain ⟨label, hl⟩ := hlab split
    have hperm : css.flatten.Perm dss.flatten := by
      induction h with
      | nil => exact .refl _
      | cons hab _ ih => rw [List.flatten_cons, List.flatten_cons]; exact hab.1.append ih
    have hin : ∀ c ∈ css.flatten, c ∈ data split := by
      clear hperm
      induction h with
      | nil => simp
      | cons hab _ ih =>
        intro c hc
        rcases List.mem_append.mp hc with hc | hc
        · exact hab.2.2 c hc
        · exact ih c hc
    have e : ∀ xss : List (List (Complex R L)), (∀ c ∈ xss.flatten, c ∈ data split) →
        (xss.map labelsOf).flatten = xss.flatten.map label := by
      intro xss hx
      rw [List.map_flatten]
      congr 1
      apply List.map_congr_left
      intro xs hxs
      exact one_label fun c hc => hl c (hx c (List.mem_flatten.mpr ⟨xs, hxs, hc⟩))
    rw [e css hin, e dss fun c hc => hin c (hperm.mem_iff.mpr hc), ← List.map_flatten, ← List.map_flatten]
    exact ⟨hnone _ _ (hperm.map g), fun _ => hmetric.map hperm g label⟩
  · intro split s
    exact (horder split s).imp fun a b h => ⟨h, trivial⟩

end

/-- **C98** What a pass in training mode does to the running statistics of SparseCIN: each layer takes the statistics
of all cells of the complexes of the batch that the layer meets, and a layer that meets no cell keeps its own. -/
theorem C98_running_statistics (mo : Momentum R) (net : SparseNet R (SparseTrain 𝕜 R)) (hn : net.Fits)
    (pp : SparseNet R (PPTrain 𝕜 R)) (hp : pp.Fits)
    (cs : List (Complex R L)) (hr : ∀ c ∈ cs, c.Ready) (mB : Nat) (B : Complex R L)
    (hB : fromComplexList cs mB = .ok B) (h1 : ¬ LonelyCell SparseTrain.isBatch net cs mB)
    (h2 : ¬ LonelyCell PPTrain.isBatch pp cs mB) :
    net.after SparseTrain.forward (SparseTrain.after mo) B =
      .ok (net.moved (SparseTrain.moved mo) SparseTrain.freeze SparseLevel.rule (cs.map fun c => c.view.upTo mB)) ∧
    pp.after PPTrain.forward (PPTrain.after mo) B =
      .ok (pp.moved (PPTrain.moved mo) PPTrain.freeze PPLevel.rule (cs.map fun c => c.view.upTo mB)) :=
  ⟨SparseNet.after_batch trains_sparse rowsOnly_sparse (moves_sparse mo) (rowsOnly_moved_sparse mo) hn hr hB h1,
    SparseNet.after_batch trains_pp rowsOnly_pp (moves_pp mo) (rowsOnly_moved_pp mo) hp hr hB h2⟩

/-- **C98** A whole experiment does not depend on the numbering of cells: with SparseCIN or CIN++, if the complexes of
the three splits are renumbered, then the losses, the parameters and the statistics after each step, the scores and the
report are the same, or the same exception is raised. -/
theorem C98_numbering_does_not_matter (mo : Momentum R) (data data' : Split → List (Complex R L))
    (hsame : ∀ split, List.Forall₂ Renumbered (data split) (data' split))
    (hr : ∀ split, ∀ c ∈ data split, c.Ready) (hr' : ∀ split, ∀ c ∈ data' split, c.Ready)
    (h0 : ∀ split, ∀ c ∈ data split, 0 < c.cellsIn 0)
    (sparse : Lab R L S (SparseTrain 𝕜 R)) (hs : ∀ s, (sparse.net s).Fits)
    (pp : Lab R L S (PPTrain 𝕜 R)) (hp : ∀ s, (pp.net s).Fits) (s : S) :
    (sparse.trial 𝕜 (sparseKind mo) data).train s = (sparse.trial 𝕜 (sparseKind mo) data').train s ∧
    runExp (sparse.trial 𝕜 (sparseKind mo) data) s = runExp (sparse.trial 𝕜 (sparseKind mo) data') s ∧
    (pp.trial 𝕜 (ppKind mo) data).train s = (pp.trial 𝕜 (ppKind mo) data').train s ∧
    runExp (pp.trial 𝕜 (ppKind mo) data) s = runExp (pp.trial 𝕜 (ppKind mo) data') s := by
  rw [experiment_numbering (kind_sparse mo) hsame hr hr' h0 hs, experiment_numbering (kind_pp mo) hsame hr hr' h0 hp]
  exact ⟨rfl, rfl, rfl, rfl⟩

/-- **C98** The order of the complexes inside the batches does not matter either, for complexes with one label each and
a loss and a score that do not depend on the order. -/
theorem C98_order_inside_batches [Nonempty L] (mo : Momentum R) (data : Split → List (Complex R L))
    (hr : ∀ split, ∀ c ∈ data split, c.Ready) (h0 : ∀ split, ∀ c ∈ data split, 0 < c.cellsIn 0)
    (hy : ∀ split, ∀ c ∈ data split, ∃ l, c.y = some [l])
    (lab : Lab R L S (SparseTrain 𝕜 R)) (hs : ∀ s, (lab.net s).Fits) (hloss : OrderFree lab.loss)
    (hmetric : OrderFree fun p l => lab.metric p (some l))
    (hnone : ∀ ps qs : List R, ps.Perm qs → lab.metric ps none = lab.metric qs none)
    (order' : Split → S → List (List Nat))
    (horder : ∀ split s, List.Forall₂ List.Perm (lab.order split s) (order' split s)) (s : S) :
    runExp (lab.trial 𝕜 (sparseKind mo) data) s = runExp ({ lab with order := order' }.trial 𝕜 (sparseKind mo) data) s := by
  rw [experiment_order (kind_sparse mo) hr h0 hy hs hloss hmetric hnone horder]

end

section
variable {𝕜 R L S : Type} [Field 𝕜] [AddCommGroup R] [Module 𝕜 R] [DecidableEq R] {g g' : Gudhi} {lib lib' : RingLib}
  {agg : List R → R} {maxK : Nat} {down : Bool}

omit [AddCommGroup R] in
theorem lifted_label (hg : g.Ok) (hl : lib.Ok) {G : RGraph R L} (hG : G.Ok) {c : Complex R L}
    (h : G.lift g lib agg maxK down true true = .ok c) : c.y = complexLabel G.y := by
  obtain ⟨x1, h1, -⟩ := RGraph.lift_ok (agg := agg) (maxK := maxK) (down := down) (initEdges := true)
    (initRings := true) hg hl hG rfl rfl
  rw [h1] at h
  cases h
  rfl

omit [AddCommGroup R] [DecidableEq R] in
theorem dimension_of_cells {c c' : Complex R L} (h : RingFacts c true true) (h' : RingFacts c' true true)
    {φ : Nat → Nat → Nat} (hφ : RelabelsCells c c' φ) : c'.dimension = c.dimension := by
  have key : ∀ {a : Complex R L}, RingFacts a true true → ∀ d, 0 < a.cellsIn d ↔ d ≤ a.dimension := by
    intro a ha d
    refine ⟨fun hd => ?_, ha.cells d⟩
    by_contra hlt
    rw [← ready_X_length ha.ready, view_X_none (List.getElem?_eq_none (by
      have := ha.valid.len
      omega))] at hd
    simp at hd
  have h1 := (key h' c.dimension).mp (by rw [hφ.size]; exact (key h _).mpr le_rfl)
  have h2 := (key h c'.dimension).mp (by rw [← hφ.size]; exact (key h' _).mpr le_rfl)
  omega

theorem lifted_same (hg : g.Ok) (hg' : g'.Ok) (hl : lib.Ok) (hl' : lib'.Ok)
    (hagg : ∀ l l' : List R, l.Perm l' → agg l = agg l') {Gs Hs : List (RGraph R L)} (hG : ∀ G ∈ Gs, G.Ok)
    (hH : ∀ H ∈ Hs, H.Ok) (hiso : List.Forall₂ (fun G H => G.Iso H ∧ H.y = G.y) Gs Hs) :
    ∃ cs cs' : List (Complex R L), mapE (RGraph.lift g lib agg maxK down true true) Gs = .ok cs ∧
      mapE (RGraph.lift g' lib' agg maxK down true true) Hs = .ok cs' ∧ List.Forall₂ Renumbered cs cs' ∧
      (∀ c ∈ cs, RingFacts c true true) ∧ ∀ c ∈ cs', RingFacts c true true := by
  induction hiso with
  | nil => exact ⟨[], [], rfl, rfl, .nil, by simp, by simp⟩
  | @cons G H Gs Hs hi _ ih =>
    obtain ⟨cs, cs', h1, h2, h3, h4, h5⟩ := ih (fun G' h' => hG G' (by simp [h']))
      (fun H' h' => hH H' (by simp [h']))
    obtain ⟨c, c', e1, e2, r1, r2, φ, hφ⟩ := ring_relabels (maxK := maxK) (down := down)
      (initEdges := true) (initRings := true) hg hg' hl hl' hagg (hG G (by simp)) (hH H (by simp)) hi.1
    refine ⟨c :: cs, c' :: cs', ?_, ?_, .cons ⟨?_, dimension_of_cells r1 r2 hφ, φ,
      relabels_of_cells r1.ready r2.ready hφ⟩ h3, ?_, ?_⟩
    · rw [mapE_eq_ok_iff] at h1 ⊢
      exact .cons e1 h1
    · rw [mapE_eq_ok_iff] at h2 ⊢
      exact .cons e2 h2
    · rw [lifted_label hg hl (hG G (by simp)) e1, lifted_label hg' hl' (hH H (by simp)) e2, hi.2]
    · simpa using ⟨r1, h4⟩
    · simpa using ⟨r2, h5⟩

/-- **C98** From graphs to the report: two datasets of pairwise isomorphic graphs with equal labels, lifted to ring
complexes with features for edges and rings, give the same experiment with SparseCIN and CIN++, whatever the numbering
of nodes, the order of edges, and the order in which the libraries report cells. -/
theorem C98_isomorphic_datasets (hg : g.Ok) (hg' : g'.Ok) (hl : lib.Ok) (hl' : lib'.Ok)
    (hagg : ∀ l l' : List R, l.Perm l' → agg l = agg l') (Gs Hs : Split → List (RGraph R L))
    (hG : ∀ split, ∀ G ∈ Gs split, G.Ok) (hH : ∀ split, ∀ H ∈ Hs split, H.Ok)
    (hiso : ∀ split, List.Forall₂ (fun G H => G.Iso H ∧ H.y = G.y) (Gs split) (Hs split)) (mo : Momentum R)
    (sparse : Lab R L S (SparseTrain 𝕜 R)) (hs : ∀ s, (sparse.net s).Fits)
    (pp : Lab R L S (PPTrain 𝕜 R)) (hp : ∀ s, (pp.net s).Fits) (s : S) :
    ∃ data data' : Split → List (Complex R L),
      (∀ split, mapE (RGraph.lift g lib agg maxK down true true) (Gs split) = .ok (data split)) ∧
      (∀ split, mapE (RGraph.lift g' lib' agg maxK down true true) (Hs split) = .ok (data' split)) ∧
      runExp (sparse.trial 𝕜 (sparseKind mo) data) s = runExp (sparse.trial 𝕜 (sparseKind mo) data') s ∧
      runExp (pp.trial 𝕜 (ppKind mo) data) s = runExp (pp.trial 𝕜 (ppKind mo) data') s := by
  have h := fun split => lifted_same (maxK := maxK) (down := down) hg hg' hl hl' hagg (hG split) (hH split) (hiso split)
  choose data data' h1 h2 h3 h4 h5 using h
  obtain ⟨-, r1, -, r2⟩ := C98_numbering_does_not_matter mo data data' h3 (fun split c hc => (h4 split c hc).ready)
    (fun split c hc => (h5 split c hc).ready) (fun split c hc => (h4 split c hc).cells 0 (Nat.zero_le _)) sparse hs pp hp s
  exact ⟨data, data', h1, h2, r1, r2⟩

end

/-! ### Examples -/

section Examples
open Fixtures

/-- Momentum 1/10, with the variance of a sample. -/
def momentumQ : Momentum ℚ := ⟨fun _ old new => (9 * old + new) / 10,
  fun n old new => (9 * old + (n : ℚ) / ((n : ℚ) - 1) * new) / 10⟩

/-- A weight, a running mean and a running variance. -/
structure StateQ where
  weight : ℚ
  mean : ℚ
  var : ℚ

/-- A SparseCIN network with one layer. -/
def learnerQ (s : StateQ) : SparseNet ℚ (SparseTrain ℚ ℚ) where
  convs := [[trainQ (.rowwise id), { trainQ (.rowwise id) with norm := .batch (fun x m => (x - m) * (x - m)) (fun m v x => x - m + v) s.mean s.var }]]
  maxDim := 1
  act x := x
  lin1s := [fun x => x + 1, fun x => 2 * x]
  lin2 x := s.weight * x

/-- A CIN++ network with one layer. -/
def learnerPPQ (s : StateQ) : SparseNet ℚ (PPTrain ℚ ℚ) where
  convs := [[trainPPQ (.rowwise id), trainPPQ (.rowwise id)]]
  maxDim := 1
  act x := x
  lin1s := [fun x => x + 1, fun x => 2 * x]
  lin2 x := s.weight * x

/-- The statistics of the edges in the only layer. -/
def statsQ (net : SparseNet ℚ (SparseTrain ℚ ℚ)) : ℚ × ℚ :=
  match net.convs with
  | [[_, l]] => match l.norm with
    | .batch _ _ m v => (m, v)
    | .rowwise _ => (0, 0)
  | _ => (0, 0)

/-- The slope of the loss. -/
def slopeQ (f : StateQ → Py ℚ) (s : StateQ) : ℚ :=
  match f { s with weight := s.weight + 1 }, f s with
  | .ok a, .ok b => a - b
  | _, _ => 0

/-- Mean absolute error of predictions and labels. -/
def errorQ (preds : List ℚ) (labels : List Nat) : Py ℚ := absoluteError (labels.map fun n : Nat => (n : ℚ)) preds

/-- Two epochs in batches of two. -/
def labQ : Lab ℚ Nat StateQ (SparseTrain ℚ ℚ) where
  net := learnerQ
  learn s net f := ⟨s.weight - slopeQ f s / 1000000, (statsQ net).1, (statsQ net).2⟩
  loss := errorQ
  metric preds labels := (errorQ preds (labels.getD [])).map some
  task := .regression
  order _ _ := [[0, 1], [1, 0]]
  maxDim := 1
  arguments := { epochs := 2, period := 1, minimize := true, untrained := false, earlyStop := false, strongly := false,
                 hasTest := false, scheduler := .none, train := fun _ => .error .value, eval := fun _ _ => .error .value,
                 decay := fun s _ => s, lrLow := fun _ => false }

/-- The same with CIN++. -/
def labPPQ : Lab ℚ Nat StateQ (PPTrain ℚ ℚ) where
  net := learnerPPQ
  learn s _ f := { s with weight := s.weight - slopeQ f s / 1000000 }
  loss := errorQ
  metric preds labels := (errorQ preds (labels.getD [])).map some
  task := .regression
  order _ _ := [[0, 1]]
  maxDim := 1
  arguments := labQ.arguments

theorem learnerQ_fits (s : StateQ) : (learnerQ s).Fits :=
  ⟨by simp [learnerQ], by simp [learnerQ], rfl, .inl rfl, .inl rfl, by simp [SparseNet.dims, learnerQ]⟩

theorem learnerPPQ_fits (s : StateQ) : (learnerPPQ s).Fits :=
  ⟨by simp [learnerPPQ], by simp [learnerPPQ], rfl, .inl rfl, .inl rfl, by simp [SparseNet.dims, learnerPPQ]⟩

/-- The house and the segment, in all splits. -/
def splitsQ (_ : Split) : List (Complex ℚ Nat) := [houseQ, segQ]

/-- The same with another numbering of the house. -/
def splitsQ' (_ : Split) : List (Complex ℚ Nat) := [houseQ.relabel (swap01 houseQ), segQ]

theorem splitsQ_same (split : Split) : List.Forall₂ Renumbered (splitsQ split) (splitsQ' split) :=
  .cons ⟨rfl, rfl, _, houseQ_ready.relabels (swap01_permutes houseQ)⟩
    (.cons ⟨rfl, rfl, fun _ k => k,
      ⟨fun _ => rfl, fun _ _ _ _ _ h => h, fun _ _ _ => rfl, by simp, by simp, by simp⟩⟩ .nil)

/-- Two epochs with the house and the segment, and with the renumbered house and the segment. -/
example := C98_numbering_does_not_matter momentumQ splitsQ splitsQ' splitsQ_same
  (fun _ => by simpa [splitsQ] using ⟨houseQ_ready, segQ_ready⟩)
  (fun _ => by simpa [splitsQ'] using ⟨houseQ_ready.relabel (swap01_permutes houseQ), segQ_ready⟩)
  (fun _ => by unfold splitsQ; decide) labQ learnerQ_fits labPPQ learnerPPQ_fits ⟨1, 0, 1⟩

/-- What is equal there: four losses, two scores. -/
example : ((runExp (labQ.trial ℚ (sparseKind momentumQ) splitsQ) ⟨1, 0, 1⟩).toOption.map fun r =>
      (r.curves.loss, r.curves.valid, r.best)) =
    some ([324665 / 14, 34686703847 / 1531250, 33863173319 / 1531250, 33039642791 / 1531250],
      [some (1307855968 / 234375), some (839621083909 / 93750000)], 0) := by decide +kernel

theorem errorQ_orderFree : OrderFree errorQ := by
  intro ps qs h
  unfold errorQ absoluteError
  have key : ∀ ps : List (ℚ × Nat), (((ps.map Prod.snd).map fun n : Nat => (n : ℚ)).zip (ps.map Prod.fst)).map
      (fun p => |p.1 - p.2|) = ps.map fun p => |(p.2 : ℚ) - p.1| := by
    intro ps
    induction ps with
    | nil => rfl
    | cons p ps ih =>
      simp only [List.map_cons, List.zip_cons_cons] at ih ⊢
      rw [ih]
  have hnil : ∀ ps : List (ℚ × Nat), (ps.map Prod.snd).map (fun n : Nat => (n : ℚ)) ≠ [] ↔ 0 < ps.length := by
    intro ps
    cases ps <;> simp
  simp only [key, hnil, List.length_map, h.length_eq]
  rw [(h.map fun p => |(p.2 : ℚ) - p.1|).sum_eq]

/-- The batches drawn in the other order. -/
example := C98_order_inside_batches momentumQ splitsQ
  (fun _ => by simpa [splitsQ] using ⟨houseQ_ready, segQ_ready⟩) (fun _ => by unfold splitsQ; decide)
  (fun _ => by simpa [splitsQ] using ⟨⟨1, rfl⟩, ⟨0, rfl⟩⟩) labQ learnerQ_fits errorQ_orderFree
  (fun ps qs h => congrArg (Except.map some) (errorQ_orderFree ps qs h))
  (fun ps qs _ => by
    show Except.map some (errorQ ps []) = Except.map some (errorQ qs [])
    simp [errorQ, absoluteError])
  (fun _ _ => [[1, 0], [0, 1]])
  (fun _ _ => .cons (List.Perm.swap _ _ _) (.cons (List.Perm.swap _ _ _) .nil)) ⟨1, 0, 1⟩

/-- The running statistics after a batch. -/
example := C98_running_statistics momentumQ (learnerQ ⟨1, 0, 1⟩) (learnerQ_fits _) (learnerPPQ ⟨1, 0, 1⟩)
  (learnerPPQ_fits _) [houseQ, segQ] (by simpa using ⟨houseQ_ready, segQ_ready⟩) 1

/-- The batch has more than one edge and more than one node, and the statistics of the edges move. -/
example : ((fromComplexList [houseQ, segQ] 1 >>= (learnerQ ⟨1, 0, 1⟩).after SparseTrain.forward
    (SparseTrain.after momentumQ)).toOption.map statsQ) = some (61 / 7, 16081 / 42) := by decide +kernel

/-- The shed and its renumbering. -/
example := C98_isomorphic_datasets (maxK := 4) (down := true) plainGudhi_ok plainGudhi_ok plainRings_ok backRings_ok
  (agg := List.sum) (fun _ _ h => h.sum_eq) (fun _ => [shedG, shedG]) (fun _ => [shedH, shedH])
  (fun _ => by simpa using shedG_ok) (fun _ => by simpa using shedH_ok)
  (fun _ => .cons ⟨shed_iso, rfl⟩ (.cons ⟨shed_iso, rfl⟩ .nil)) momentumQ labQ learnerQ_fits labPPQ learnerPPQ_fits
  ⟨1, 0, 1⟩

end Examples

end Verif
