import Verif.Lemmas.GINBatch
import Verif.Props.Embed

/-!
# C63: the embedding networks on batches
-/

namespace Verif

variable {𝕜 R L : Type} [Field 𝕜] [AddCommGroup R] [Module 𝕜 R]

theorem UniformFeatures.sub {cs ds : List (Complex R L)} (h : UniformFeatures cs)
    (hsub : ∀ d ∈ ds, d ∈ cs) : UniformFeatures ds := by
  intro d
  rcases h d with h | h
  · exact .inl fun c hc => h c (hsub c hc)
  · exact .inr fun c hc => h c (hsub c hc)

/-- **C63** EmbedSparseCIN: the predictions for a batch are those for its complexes alone. -/
theorem C63_embed_sparse_cin_predictions_do_not_depend_on_the_batch
    (net : EmbedNet R (SparseLevel 𝕜 R)) (hn : net.net.Fits)
    (hred : ∀ l l' : List R, l.Perm l' → net.init.reduce l = net.init.reduce l')
    (cs : List (Complex R L)) (hne : cs ≠ []) (h : ∀ c ∈ cs, net.init.Takes c)
    (hu : UniformFeatures cs) (mB : Nat) (hm : ∀ c ∈ cs, min c.dimension mB ≤ net.net.maxDim) :
    ∃ preds, (fromComplexList cs mB >>= net.forward 𝕜 SparseLevel.forward) = .ok preds ∧
      preds.length = cs.length ∧ ∀ (i : Nat) (comp : Complex R L), cs[i]? = some comp →
        ∃ p, preds[i]? = some p ∧
          (fromComplexList [comp] mB >>= net.forward 𝕜 SparseLevel.forward) = .ok [p] :=
  single_of_all (f := fun ds => fromComplexList ds mB >>= net.forward 𝕜 SparseLevel.forward) hne
    fun _ hds hsub => EmbedNet.forward_all (realises_sparse false) hn hred hds
      (fun c hc => h c (hsub c hc)) (hu.sub hsub) (fun c hc => hm c (hsub c hc))

/-- **C63** EmbedCINpp: likewise. -/
theorem C63_embed_cinpp_predictions_do_not_depend_on_the_batch
    (net : EmbedNet R (PPLevel 𝕜 R)) (hn : net.net.Fits)
    (hred : ∀ l l' : List R, l.Perm l' → net.init.reduce l = net.init.reduce l')
    (cs : List (Complex R L)) (hne : cs ≠ []) (h : ∀ c ∈ cs, net.init.Takes c)
    (hu : UniformFeatures cs) (mB : Nat) (hm : ∀ c ∈ cs, min c.dimension mB ≤ net.net.maxDim) :
    ∃ preds, (fromComplexList cs mB >>= net.forward 𝕜 PPLevel.forward) = .ok preds ∧
      preds.length = cs.length ∧ ∀ (i : Nat) (comp : Complex R L), cs[i]? = some comp →
        ∃ p, preds[i]? = some p ∧
          (fromComplexList [comp] mB >>= net.forward 𝕜 PPLevel.forward) = .ok [p] :=
  single_of_all (f := fun ds => fromComplexList ds mB >>= net.forward 𝕜 PPLevel.forward) hne
    fun _ hds hsub => EmbedNet.forward_all (realises_pp false) hn hred hds
      (fun c hc => h c (hsub c hc)) (hu.sub hsub) (fun c hc => hm c (hsub c hc))

/-- **C63** EmbedSparseCINNoRings: likewise. -/
theorem C63_no_rings_predictions_do_not_depend_on_the_batch
    (net : EmbedNet R (SparseLevel 𝕜 R)) (hn : net.flat.net.Fits)
    (hred : ∀ l l' : List R, l.Perm l' → net.init.reduce l = net.init.reduce l')
    (cs : List (Complex R L)) (hne : cs ≠ []) (h : ∀ c ∈ cs, net.init.Takes c)
    (hu : UniformFeatures cs) (mB : Nat) (hm : 1 ≤ mB) :
    ∃ preds, (fromComplexList cs mB >>= net.forwardNoRings 𝕜 SparseLevel.forward) = .ok preds ∧
      preds.length = cs.length ∧ ∀ (i : Nat) (comp : Complex R L), cs[i]? = some comp →
        ∃ p, preds[i]? = some p ∧
          (fromComplexList [comp] mB >>= net.forwardNoRings 𝕜 SparseLevel.forward) = .ok [p] :=
  single_of_all (f := fun ds => fromComplexList ds mB >>= net.forwardNoRings 𝕜 SparseLevel.forward)
    hne fun _ hds hsub => EmbedNet.forwardNoRings_all sparse_ignoresAttr (realises_sparse false) hn
      hred hds (fun c hc => h c (hsub c hc)) (hu.sub hsub) hm

/-- **C63** What is predicted: the networks compute the specification `EmbedNet.predict` of each
complex; the no-rings network that of the complex cut off above its edges. -/
theorem C63_predictions_meet_the_specification
    (sparse : EmbedNet R (SparseLevel 𝕜 R)) (hs : sparse.net.Fits)
    (hrs : ∀ l l' : List R, l.Perm l' → sparse.init.reduce l = sparse.init.reduce l')
    (pp : EmbedNet R (PPLevel 𝕜 R)) (hp : pp.net.Fits)
    (hrp : ∀ l l' : List R, l.Perm l' → pp.init.reduce l = pp.init.reduce l')
    (flat : EmbedNet R (SparseLevel 𝕜 R)) (hf : flat.flat.net.Fits)
    (hrf : ∀ l l' : List R, l.Perm l' → flat.init.reduce l = flat.init.reduce l')
    (cs : List (Complex R L)) (hne : cs ≠ []) (h : ∀ c ∈ cs, sparse.init.Takes c)
    (h' : ∀ c ∈ cs, pp.init.Takes c) (hg : ∀ c ∈ cs, flat.init.Takes c) (hu : UniformFeatures cs) (mB : Nat)
    (hm : ∀ c ∈ cs, min c.dimension mB ≤ sparse.net.maxDim)
    (hm' : ∀ c ∈ cs, min c.dimension mB ≤ pp.net.maxDim) (h1 : 1 ≤ mB) :
    (fromComplexList cs mB >>= sparse.forward 𝕜 SparseLevel.forward) =
        .ok (cs.map (sparse.predict 𝕜 SparseLevel.rule mB)) ∧
      (fromComplexList cs mB >>= pp.forward 𝕜 PPLevel.forward) =
        .ok (cs.map (pp.predict 𝕜 PPLevel.rule mB)) ∧
      (fromComplexList cs mB >>= flat.forwardNoRings 𝕜 SparseLevel.forward) =
        .ok (cs.map (flat.flat.predict 𝕜 SparseLevel.rule 1)) :=
  ⟨EmbedNet.forward_all (realises_sparse false) hs hrs hne h hu hm,
    EmbedNet.forward_all (realises_pp false) hp hrp hne h' hu hm',
    EmbedNet.forwardNoRings_all sparse_ignoresAttr (realises_sparse false) hf hrf hne hg hu h1⟩

/-- Two lists of complexes that differ in the numbering of cells and the order of columns only. -/
def RenumberedCells (cs cs' : List (Complex R L)) : Prop :=
  List.Forall₂ (fun c c' => ∃ φ, RelabelsCells c c' φ) cs cs'

theorem RenumberedCells.map_predict {Lv : Type} {rule : Lv → Rule R} {net : EmbedNet R Lv}
    (hred : ∀ l l' : List R, l.Perm l' → net.init.reduce l = net.init.reduce l')
    {cs cs' : List (Complex R L)} (h : RenumberedCells cs cs') (hc : ∀ c ∈ cs, net.init.Takes c)
    (hc' : ∀ c ∈ cs', net.init.Takes c) (mB : Nat) :
    cs'.map (net.predict 𝕜 rule mB) = cs.map (net.predict 𝕜 rule mB) := by
  induction h with
  | nil => rfl
  | @cons a b l l' hab _ ih =>
    obtain ⟨φ, hφ⟩ := hab
    rw [List.map_cons, List.map_cons, ih (fun c h => hc c (by simp [h])) (fun c h => hc' c (by simp [h])),
      EmbedNet.predict_relabel hred hφ (hc a (by simp)) (hc' b (by simp))]

theorem RenumberedCells.ne {cs cs' : List (Complex R L)} (h : RenumberedCells cs cs') (hne : cs ≠ []) :
    cs' ≠ [] := by
  cases h with
  | nil => exact absurd rfl hne
  | cons _ _ => simp

/-- **C63** The predictions do not depend on how the cells are numbered, nor on the order of the
columns of the indices. -/
theorem C63_predictions_do_not_depend_on_numbering
    (sparse : EmbedNet R (SparseLevel 𝕜 R)) (hs : sparse.net.Fits)
    (hrs : ∀ l l' : List R, l.Perm l' → sparse.init.reduce l = sparse.init.reduce l')
    (pp : EmbedNet R (PPLevel 𝕜 R)) (hp : pp.net.Fits)
    (hrp : ∀ l l' : List R, l.Perm l' → pp.init.reduce l = pp.init.reduce l')
    (flat : EmbedNet R (SparseLevel 𝕜 R)) (hf : flat.flat.net.Fits)
    (hrf : ∀ l l' : List R, l.Perm l' → flat.init.reduce l = flat.init.reduce l')
    (cs cs' : List (Complex R L)) (hne : cs ≠ []) (hφ : RenumberedCells cs cs')
    (h : ∀ c ∈ cs ++ cs', sparse.init.Takes c) (h' : ∀ c ∈ cs ++ cs', pp.init.Takes c)
    (hg : ∀ c ∈ cs ++ cs', flat.init.Takes c) (hu : UniformFeatures cs) (hu' : UniformFeatures cs') (mB : Nat)
    (hm : ∀ c ∈ cs ++ cs', min c.dimension mB ≤ sparse.net.maxDim)
    (hm' : ∀ c ∈ cs ++ cs', min c.dimension mB ≤ pp.net.maxDim) (h1 : 1 ≤ mB) :
    (∃ preds, (fromComplexList cs mB >>= sparse.forward 𝕜 SparseLevel.forward) = .ok preds ∧
        (fromComplexList cs' mB >>= sparse.forward 𝕜 SparseLevel.forward) = .ok preds) ∧
      (∃ preds, (fromComplexList cs mB >>= pp.forward 𝕜 PPLevel.forward) = .ok preds ∧
        (fromComplexList cs' mB >>= pp.forward 𝕜 PPLevel.forward) = .ok preds) ∧
      (∃ preds, (fromComplexList cs mB >>= flat.forwardNoRings 𝕜 SparseLevel.forward) = .ok preds ∧
        (fromComplexList cs' mB >>= flat.forwardNoRings 𝕜 SparseLevel.forward) = .ok preds) := by
  have l : ∀ c ∈ cs, c ∈ cs ++ cs' := fun c hc => by simp [hc]
  have r : ∀ c ∈ cs', c ∈ cs ++ cs' := fun c hc => by simp [hc]
  have a := C63_predictions_meet_the_specification sparse hs hrs pp hp hrp flat hf hrf cs hne
    (fun c hc => h c (l c hc)) (fun c hc => h' c (l c hc))
    (fun c hc => hg c (l c hc)) hu mB (fun c hc => hm c (l c hc))
    (fun c hc => hm' c (l c hc)) h1
  have b := C63_predictions_meet_the_specification sparse hs hrs pp hp hrp flat hf hrf cs' (hφ.ne hne)
    (fun c hc => h c (r c hc)) (fun c hc => h' c (r c hc))
    (fun c hc => hg c (r c hc)) hu' mB (fun c hc => hm c (r c hc))
    (fun c hc => hm' c (r c hc)) h1
  refine ⟨⟨_, a.1, ?_⟩, ⟨_, a.2.1, ?_⟩, ⟨_, a.2.2, ?_⟩⟩
  · rw [b.1, hφ.map_predict hrs (fun c hc => h c (l c hc)) fun c hc => h c (r c hc)]
  · rw [b.2.1, hφ.map_predict hrp (fun c hc => h' c (l c hc)) fun c hc => h' c (r c hc)]
  · rw [b.2.2, hφ.map_predict (net := flat.flat) hrf (fun c hc => hg c (l c hc))
      fun c hc => hg c (r c hc)]

/-- **C63** EmbedGIN: the predictions for a batch are those for its complexes alone, meet the
specification and do not depend on the numbering. -/
theorem C63_embed_gin_predictions (net : EmbedGIN 𝕜 R) (hn : net.convs ≠ [])
    (hread : net.readout = "sum" ∨ net.readout = "mean")
    (hred : ∀ l l' : List R, l.Perm l' → net.init.reduce l = net.init.reduce l')
    (cs : List (Complex R L)) (hne : cs ≠ []) (h : ∀ c ∈ cs, net.init.Takes c)
    (hu : UniformFeatures cs) (mB : Nat) (h1 : 1 ≤ mB) :
    (fromComplexList cs mB >>= net.forward) = .ok (cs.map net.predict) ∧
      (∀ comp ∈ cs, (fromComplexList [comp] mB >>= net.forward) = .ok [net.predict comp]) ∧
      ∀ cs' : List (Complex R L), RenumberedCells cs cs' → (∀ c ∈ cs', net.init.Takes c) →
        UniformFeatures cs' →
        (fromComplexList cs' mB >>= net.forward) = (fromComplexList cs mB >>= net.forward) := by
  have key : ∀ ds : List (Complex R L), ds ≠ [] → (∀ c ∈ ds, net.init.Takes c) → UniformFeatures ds →
      (fromComplexList ds mB >>= net.forward) = .ok (ds.map net.predict) :=
    fun ds hds ht hut => EmbedGIN.forward_all hn hread hred hds ht hut h1
  refine ⟨key cs hne h hu, ?_, ?_⟩
  · intro comp hc
    exact key [comp] (by simp) (by simpa using h comp hc) (hu.sub (by simpa using hc))
  · intro cs' hr h' hu'
    rw [key cs hne h hu, key cs' (hr.ne hne) h' hu', ok_inj]
    clear key hne hu hu'
    induction hr with
    | nil => rfl
    | @cons a b l l' hab _ ih =>
      obtain ⟨φ, hφ⟩ := hab
      rw [List.map_cons, List.map_cons, ih (fun c hc => h c (by simp [hc]))
        (fun c hc => h' c (by simp [hc])), EmbedGIN.predict_relabel hred hφ (h a (by simp)) (h' b (by simp))]

/-! ### Examples -/

section Examples
open Fixtures

/-- An embedding network with CIN++ layers. -/
def embedPPQ : EmbedNet ℚ (PPLevel ℚ ℚ) where
  init := initQ
  net := ppNetQ

/-- The house with its cells renumbered and no features on its triangle. -/
def bareSwapQ : Complex ℚ Nat :=
  { houseQ.relabel (swap01 houseQ) with
    cochains := (houseQ.relabel (swap01 houseQ)).cochains.map fun c =>
      if c.dim = 2 then { c with x := none } else c }

theorem initQ_reduce (l l' : List ℚ) (h : l.Perm l') : initQ.reduce l = initQ.reduce l' := h.sum_eq

theorem takes_of_dec {l : EmbedInit ℚ} {comp : Complex ℚ Nat} (hv : comp.Valid) (hs : comp.dimension ≤ 2)
    (hc : ∀ d ∈ List.range 3, d ≤ comp.dimension → 0 < comp.cellsIn d)
    (hn : (comp.attr 0 Cochain.x).isSome) (hl : comp.attr 0 Cochain.lowerIndex = none)
    (hf : ∀ d ∈ [1, 2], ∀ c ∈ List.range (comp.cellsIn d), ∃ p ∈ comp.faces d, p.2 = c)
    (hlen : comp.cochains.length ≤ 3)
    (he : (comp.attr 1 Cochain.x).isSome → l.eEmbed.isSome) : l.Takes comp := by
  refine ⟨hv, hs, fun d hd => hc d (List.mem_range.mpr (by omega)) hd, hn, hl, ?_, he⟩
  intro d c hd h
  by_cases h3 : d ≤ 2
  · exact hf d (by simp; omega) c (List.mem_range.mpr h)
  · unfold Complex.cellsIn at h
    rw [List.getElem?_eq_none (by omega)] at h
    simp at h

theorem bareQ_takes : initQ.Takes bareQ :=
  takes_of_dec (validB_sound (by decide)) (by decide) (by decide) (by decide) rfl (by decide) (by decide)
    (by decide)

theorem bareSwapQ_takes : initQ.Takes bareSwapQ :=
  takes_of_dec (validB_sound (by decide)) (by decide) (by decide) (by decide) rfl (by decide) (by decide)
    (by decide)

theorem segQ_takes : initQ.Takes segQ :=
  takes_of_dec (validB_sound (by decide)) (by decide) (by decide) (by decide) rfl (by decide) (by decide)
    (by decide)

theorem uniform_of_dec {cs : List (Complex ℚ Nat)} (h : ∀ d ∈ List.range 3,
    (∀ c ∈ cs, d ≤ c.dimension → (c.attr d Cochain.x).isSome) ∨ ∀ c ∈ cs, c.attr d Cochain.x = none)
    (hc : ∀ c ∈ cs, c.dimension ≤ 2) : UniformFeatures cs := by
  intro d
  by_cases hd : d ≤ 2
  · exact h d (List.mem_range.mpr (by omega))
  · exact .inl fun c hcs hd' => absurd (hc c hcs) (by omega)

theorem bareQ_relabels : RelabelsCells bareQ bareSwapQ fun d k => swap01 houseQ d k where
  size d := by
    match d with
    | 0 | 1 | 2 => decide
    | d + 3 => rfl
  inj d j k _ _ h := (swap01 houseQ d).injective h
  some d := by
    match d with
    | 0 | 1 | 2 => decide
    | d + 3 => rfl
  feat d k h := by
    match d with
    | 0 | 1 | 2 => revert k; decide +kernel
    | d + 3 => exact absurd h (by show ¬ k < 0; omega)
  up d := by
    match d with
    | 0 | 1 | 2 => decide
    | d + 3 => exact List.Perm.refl []
  down d := by
    match d with
    | 0 | 1 | 2 => decide
    | d + 3 => exact List.Perm.refl []
  bnd d := by
    match d with
    | 0 | 1 | 2 => decide
    | d + 3 => exact List.Perm.refl []

/-- A no-rings network of its own: two levels. -/
def flatQ : EmbedNet ℚ (SparseLevel ℚ ℚ) where
  init := initQ
  net := { sparseNetQ with
    maxDim := 1, convs := sparseNetQ.convs.map (·.take 2), lin1s := sparseNetQ.lin1s.take 2 }

/-- A batch of a segment with edge features and a house whose triangle has none, and the same with the
cells of the house renumbered, meet the hypotheses. -/
example : noRingsQ.net.Fits ∧ flatQ.flat.net.Fits ∧ embedPPQ.net.Fits ∧
    (∀ c ∈ [segQ, bareQ] ++ [segQ, bareSwapQ], noRingsQ.init.Takes c ∧ embedPPQ.init.Takes c ∧
      flatQ.init.Takes c ∧ min c.dimension 2 ≤ noRingsQ.net.maxDim ∧
      min c.dimension 2 ≤ embedPPQ.net.maxDim) ∧
    UniformFeatures [segQ, bareQ] ∧ UniformFeatures [segQ, bareSwapQ] ∧
    (bareQ.attr 0 Cochain.upperIndex ≠ bareSwapQ.attr 0 Cochain.upperIndex) ∧
    RenumberedCells [bareQ] [bareSwapQ] := by
  refine ⟨sparseNetQ_fits, ⟨by simp [EmbedNet.flat, flatQ, sparseNetQ],
    by simp [EmbedNet.flat, flatQ, sparseNetQ], rfl, .inr rfl, .inl rfl, by decide⟩, ppNetQ_fits, ?_,
    uniform_of_dec (by decide) (by decide), uniform_of_dec (by decide) (by decide), by decide,
    .cons ⟨_, bareQ_relabels⟩ .nil⟩
  intro c hc
  simp only [List.cons_append, List.nil_append, List.mem_cons, List.not_mem_nil, or_false] at hc
  rcases hc with rfl | rfl | rfl | rfl
  · exact ⟨segQ_takes, segQ_takes, segQ_takes, by decide, by decide⟩
  · exact ⟨bareQ_takes, bareQ_takes, bareQ_takes, by decide, by decide⟩
  · exact ⟨segQ_takes, segQ_takes, segQ_takes, by decide, by decide⟩
  · exact ⟨bareSwapQ_takes, bareSwapQ_takes, bareSwapQ_takes, by decide, by decide⟩

example : (fromComplexList [segQ, bareQ] 2 >>= noRingsQ.forward ℚ SparseLevel.forward) =
      (do let a ← fromComplexList [segQ] 2 >>= noRingsQ.forward ℚ SparseLevel.forward
          let b ← fromComplexList [bareSwapQ] 2 >>= noRingsQ.forward ℚ SparseLevel.forward
          return a ++ b) ∧
    ((fromComplexList [segQ, bareQ] 2 >>= noRingsQ.forward ℚ SparseLevel.forward).toOption.map
      List.length) = some 2 ∧
    (fromComplexList [segQ, bareQ] 2 >>= flatQ.forwardNoRings ℚ SparseLevel.forward) =
      (do let a ← fromComplexList [segQ] 2 >>= flatQ.forwardNoRings ℚ SparseLevel.forward
          let b ← fromComplexList [bareSwapQ] 2 >>= flatQ.forwardNoRings ℚ SparseLevel.forward
          return a ++ b) ∧
    (fromComplexList [segQ, bareQ] 2 >>= ginQ.forward) =
      (do let a ← fromComplexList [segQ] 2 >>= ginQ.forward
          let b ← fromComplexList [bareSwapQ] 2 >>= ginQ.forward
          return a ++ b) ∧ ginQ.convs ≠ [] := by
  refine ⟨?_, ?_, ?_, ?_, by simp [ginQ]⟩ <;> decide +kernel

end Examples

end Verif
