import Verif.Lemmas.CINTrain
import Verif.Props.TrainMode
import Verif.Props.Lower

/-!
# C109: CIN0 in training mode
-/

namespace Verif

section
variable {𝕜 R L : Type} [Field 𝕜] [AddCommMonoid R] [Module 𝕜 R]

/-- **C109** What CIN0 computes for a batch in training mode: if some batch normalisation gets a single row (one
cell, one upper message or one lower message in some dimension of the whole batch), an exception; otherwise, for
each complex, what the network computes in evaluation mode when its running statistics are those that the messages
and cells of all complexes of the batch have in each layer. -/
theorem C109_cin_in_training_mode (net : CINNet R (CINTrain 𝕜 R)) (hn : net.Fits)
    (cs : List (Complex R L)) (hne : cs ≠ []) (hr : ∀ c ∈ cs, c.Ready) (h0 : ∀ c ∈ cs, 0 < c.cellsIn 0)
    (mB : Nat) :
    (net.LonelyRow (cs.map fun c => c.view.upTo mB) →
      (fromComplexList cs mB >>= net.forward 𝕜 CINTrain.forward) = .error .value) ∧
    (¬ net.LonelyRow (cs.map fun c => c.view.upTo mB) →
      (fromComplexList cs mB >>= net.forward 𝕜 CINTrain.forward) =
        .ok (cs.map fun c => (net.frozen CINTrain.freeze CINLevel.rule
          (cs.map fun c => c.view.upTo mB)).predict 𝕜 CINLevel.rule (c.view.upTo mB))) := by
  obtain ⟨B, hB⟩ := batch_exists hne hr mB
  obtain ⟨h1, h2⟩ := CINNet.forward_train hn hr hB
  rw [hB, ok_bind]
  refine ⟨h1, fun h => ?_⟩
  rw [h2 h]
  have := CINNet.forward_all (𝕜 := 𝕜) realises_cin (hn.frozen (cs.map fun c => c.view.upTo mB)) hne hr h0 mB
  rw [hB, ok_bind] at this
  exact this

theorem not_lonelyRow {net : CINNet R (CINTrain 𝕜 R)} {cs : List (Complex R L)}
    (hr : ∀ c ∈ cs, c.Ready) (hf : ∀ c ∈ cs, c.view.FromFaces) {mB n : Nat} {B : Complex R L}
    (hB : fromComplexList cs mB = .ok B) (hn : numSamples (.complexes B) = .ok n) (h2 : 2 ≤ n) :
    ¬ net.LonelyRow (cs.map fun c => c.view.upTo mB) := by
  rintro ⟨conv, -, d, l, -, ⟨-, h⟩ | ⟨-, h⟩ | ⟨-, h⟩⟩
  · refine sum_ne_one ?_ h
    rw [List.map_map, List.forall_mem_map]
    intro c hc
    simp only [Function.comp, View.upTo]
    split
    · exact (hf c hc).up_ne_one d
    · simp
  · refine sum_ne_one ?_ h
    rw [List.map_map, List.forall_mem_map]
    intro c hc
    simp only [Function.comp, View.upTo]
    split
    · exact (hf c hc).down_ne_one d
    · simp
  · unfold cellCount at h
    rw [List.map_map] at h
    by_cases hd : d ≤ mB
    · have e : (cs.map ((fun v : View R => (v.X d).length) ∘ fun c => c.view.upTo mB)).sum = (B.view.X d).length := by
        rw [batch_X_length hB hr hd]
        congr 1
        exact List.map_congr_left fun c hc => upTo_X_length (hr c hc) hd
      rw [e] at h
      by_cases hdB : d ≤ B.dimension
      · obtain ⟨k, hk, hiff⟩ := numSamples_complex (cellCounts_batch hB hr)
        rw [hn] at hk
        cases hk
        have := (hiff 2).mp h2 d hdB
        rw [batch_X_length hB hr hd] at h
        omega
      · rw [view_X_none (List.getElem?_eq_none (by
          have := (batch_runs hB hr).len
          omega))] at h
        simp at h
    · refine sum_ne_one ?_ h
      intro k hk
      obtain ⟨c, -, rfl⟩ := List.mem_map.mp hk
      simp [View.upTo, hd]

/-- **C109** On complexes whose adjacencies are those that the incidences give, the batches that an epoch does not
skip never make CIN0 raise: the epoch counts the cells, not the messages, but adjacencies come in both directions,
so that there is never exactly one message. -/
theorem C109_trained_batches_run (net : CINNet R (CINTrain 𝕜 R)) (hn : net.Fits)
    (cs : List (Complex R L)) (hne : cs ≠ []) (hr : ∀ c ∈ cs, c.Ready) (h0 : ∀ c ∈ cs, 0 < c.cellsIn 0)
    (hf : ∀ c ∈ cs, c.view.FromFaces) (mB : Nat) (B : Complex R L) (hB : fromComplexList cs mB = .ok B) (n : Nat)
    (hs : numSamples (.complexes B) = .ok n) (h2 : 2 ≤ n) :
    ∃ preds, net.forward 𝕜 CINTrain.forward B = .ok preds ∧ preds.length = cs.length := by
  have h3 := (C109_cin_in_training_mode net hn cs hne hr h0 mB).2 (not_lonelyRow hr hf hB hs h2)
  rw [hB, ok_bind] at h3
  exact ⟨_, h3, by simp⟩

/-- **C109** This covers the lifted graphs: clique complexes and complexes with rings, with lower adjacencies. -/
theorem C109_lifted_graphs [DecidableEq R] (net : CINNet R (CINTrain 𝕜 R)) (hn : net.Fits) (g : Gudhi) (hg : g.Ok)
    (lib : RingLib) (hl : lib.Ok) (agg : List R → R) (hagg : ∀ l l' : List R, l.Perm l' → agg l = agg l')
    (k maxK mB : Nat) (Gs : List (FGraph R L)) (hne : Gs ≠ []) (hG : ∀ G ∈ Gs, G.Ok)
    (Hs : List (RGraph R L)) (hne' : Hs ≠ []) (hH : ∀ H ∈ Hs, H.Ok) :
    ∃ cs ds B C, mapE (FGraph.lift g agg k true) Gs = .ok cs ∧ fromComplexList cs mB = .ok B ∧
      mapE (RGraph.lift g lib agg maxK true true true) Hs = .ok ds ∧ fromComplexList ds mB = .ok C ∧
      ((∃ n, numSamples (.complexes B) = .ok n ∧ 2 ≤ n) →
        ∃ preds, net.forward 𝕜 CINTrain.forward B = .ok preds ∧ preds.length = Gs.length) ∧
      ((∃ n, numSamples (.complexes C) = .ok n ∧ 2 ≤ n) →
        ∃ preds, net.forward 𝕜 CINTrain.forward C = .ok preds ∧ preds.length = Hs.length) := by
  obtain ⟨cs, h1, h2⟩ := mapE_forall₂ (f := FGraph.lift g agg k true) (P := fun _ comp => comp.Ready ∧
      0 < comp.cellsIn 0 ∧ comp.view.FromFaces) (l := Gs)
    (fun G h => by
      obtain ⟨c, e, r, z, f, -⟩ := clique_fromFaces hg hagg k (hG G h)
      exact ⟨c, e, r, z, f⟩)
  obtain ⟨ds, h3, h4⟩ := mapE_forall₂ (f := RGraph.lift g lib agg maxK true true true) (P := fun _ comp =>
      comp.Ready ∧ 0 < comp.cellsIn 0 ∧ comp.view.FromFaces) (l := Hs)
    (fun G h => by
      obtain ⟨c, e, r, z, f, -⟩ := ring_fromFaces hg hl hagg maxK (hH G h)
      exact ⟨c, e, r, z, f⟩)
  have a1 := fun c (hc : c ∈ cs) => (forall₂_source h2 hc).choose_spec.2
  have a2 := fun c (hc : c ∈ ds) => (forall₂_source h4 hc).choose_spec.2
  have n1 : cs ≠ [] := by
    rintro rfl
    cases h2
    exact hne rfl
  have n2 : ds ≠ [] := by
    rintro rfl
    cases h4
    exact hne' rfl
  obtain ⟨B, hB⟩ := batch_exists n1 (fun c hc => (a1 c hc).1) mB
  obtain ⟨C, hC⟩ := batch_exists n2 (fun c hc => (a2 c hc).1) mB
  refine ⟨cs, ds, B, C, h1, hB, h3, hC, ?_, ?_⟩
  · rintro ⟨n, hs, hn2⟩
    rw [h2.length_eq]
    exact C109_trained_batches_run net hn cs n1 (fun c hc => (a1 c hc).1) (fun c hc => (a1 c hc).2.1)
      (fun c hc => (a1 c hc).2.2) mB B hB n hs hn2
  · rintro ⟨n, hs, hn2⟩
    rw [h4.length_eq]
    exact C109_trained_batches_run net hn ds n2 (fun c hc => (a2 c hc).1) (fun c hc => (a2 c hc).2.1)
      (fun c hc => (a2 c hc).2.2) mB C hC n hs hn2

/-- **C109** In training mode too, the predictions of CIN0 for a batch do not depend on the order of the complexes
and on the numbering of their cells. -/
theorem C109_training_does_not_depend_on_numbering (net : CINNet R (CINTrain 𝕜 R)) (hn : net.Fits)
    (cs ds cs' : List (Complex R L)) (hne : cs ≠ []) (hr : ∀ c ∈ cs, c.Ready) (hr' : ∀ c ∈ cs', c.Ready)
    (h0 : ∀ c ∈ cs, 0 < c.cellsIn 0) (hp : cs.Perm ds) (hren : RenumberedBatch ds cs') (mB : Nat) :
    ((fromComplexList cs mB >>= net.forward 𝕜 CINTrain.forward) = .error .value ∧
      (fromComplexList cs' mB >>= net.forward 𝕜 CINTrain.forward) = .error .value) ∨
    ∃ g : Complex R L → R, (fromComplexList cs mB >>= net.forward 𝕜 CINTrain.forward) = .ok (cs.map g) ∧
      (fromComplexList cs' mB >>= net.forward 𝕜 CINTrain.forward) = .ok (ds.map g) := by
  have hrd : ∀ c ∈ ds, c.Ready := fun c hc => hr c (hp.mem_iff.mpr hc)
  have hned : ds ≠ [] := by
    rintro rfl
    exact hne hp.eq_nil
  have h0d : ∀ c ∈ ds, 0 < c.cellsIn 0 := fun c hc => h0 c (hp.mem_iff.mpr hc)
  have h0' := cells_of_renumbered hren hrd hr' h0d
  have hne' := ne_of_renumbered hren hned
  obtain ⟨h1, h2⟩ := C109_cin_in_training_mode net hn cs hne hr h0 mB
  obtain ⟨h1', h2'⟩ := C109_cin_in_training_mode net hn cs' hne' hr' h0' mB
  have hal : AlikeAll net.maxDim (cs'.map fun c => c.view.upTo mB) (cs.map fun c => c.view.upTo mB) := by
    refine AlikeAll.trans (vs' := ds.map fun c => c.view.upTo mB) ?_ ?_
    · refine alikeAll_relabels ?_ ?_ ?_
      · rw [List.forall₂_map_left_iff, List.forall₂_map_right_iff]
        exact hren.imp fun c c' ⟨φ, h⟩ => ⟨φ, h.upTo mB⟩
      · rw [List.forall_mem_map]
        exact fun c hc => upTo_inRange (ready_inRange (hrd c hc)) mB
      · rw [List.forall_mem_map]
        exact fun c hc => upTo_inRange (ready_inRange (hr' c hc)) mB
    · exact alikeAll_perm (hp.symm.map _)
  have hlon : net.LonelyRow (cs'.map fun c => c.view.upTo mB) ↔ net.LonelyRow (cs.map fun c => c.view.upTo mB) := by
    unfold CINNet.LonelyRow
    simp only [(hal.zero _).oneRow]
  by_cases hl : net.LonelyRow (cs.map fun c => c.view.upTo mB)
  · exact .inl ⟨h1 hl, h1' (hlon.mpr hl)⟩
  · refine .inr ⟨_, h2 hl, ?_⟩
    rw [h2' fun h => hl (hlon.mp h)]
    have hfr : net.frozen CINTrain.freeze CINLevel.rule (cs'.map fun c => c.view.upTo mB) =
        net.frozen CINTrain.freeze CINLevel.rule (cs.map fun c => c.view.upTo mB) := by
      unfold CINNet.frozen
      rw [hal.freeze]
    rw [hfr, ok_inj]
    generalize net.frozen CINTrain.freeze CINLevel.rule (cs.map fun c => c.view.upTo mB) = fz
    exact map_eq_of_renumbered hren hrd fun v w φ hφ hv => fz.predict_relabel hφ hv

/-- No normalisation of the layer depends on the rows of the batch. -/
def CINTrain.RowByRow (l : CINTrain 𝕜 R) : Prop :=
  l.upNorm.isBatch = false ∧ l.downNorm.isBatch = false ∧ l.norm.isBatch = false

theorem CINTrain.RowByRow.freeze {l : CINTrain 𝕜 R} (h : l.RowByRow) (vs : List (View R)) (d : Nat) :
    l.freeze vs d = l.eval := by
  simp only [CINTrain.freeze, CINTrain.eval, NormNet.freeze_rowwise h.1, NormNet.freeze_rowwise h.2.1,
    NormNet.freeze_rowwise h.2.2]

/-- **C109** Were its normalisations to act on each row, CIN0 would compute the same in training mode and in
evaluation mode: the two differ by the batch normalisation only. -/
theorem C109_without_batch_normalisation (net : CINNet R (CINTrain 𝕜 R)) (hn : net.Fits)
    (hrow : ∀ conv ∈ net.convs, ∀ l ∈ conv, l.RowByRow)
    (cs : List (Complex R L)) (hne : cs ≠ []) (hr : ∀ c ∈ cs, c.Ready) (h0 : ∀ c ∈ cs, 0 < c.cellsIn 0)
    (mB : Nat) :
    ∃ preds, (fromComplexList cs mB >>= net.forward 𝕜 CINTrain.forward) = .ok preds ∧
      (fromComplexList cs mB >>= (net.evalMode CINTrain.eval).forward 𝕜 CINLevel.forward) = .ok preds := by
  refine ⟨_, (C109_cin_in_training_mode net hn cs hne hr h0 mB).2 ?_, ?_⟩
  · rintro ⟨conv, hc, d, l, hl, h⟩
    have hb := hrow conv hc l (List.mem_of_getElem? hl)
    rcases h with h | h | h
    · rw [hb.1] at h; cases h.1
    · rw [hb.2.1] at h; cases h.1
    · rw [hb.2.2] at h; cases h.1
  · have key : ∀ (convs : List (List (CINTrain 𝕜 R))) (vs : List (View R)),
        (∀ conv ∈ convs, ∀ l ∈ conv, l.RowByRow) →
        freezeConvs CINTrain.freeze CINLevel.rule net.maxDim vs convs = convs.map (List.map CINTrain.eval) := by
      intro convs
      induction convs with
      | nil => intros; rfl
      | cons conv convs ih =>
        intro vs h
        have e : (conv.mapIdx fun d l => CINTrain.freeze l vs d) = conv.map CINTrain.eval := by
          apply List.ext_getElem?
          intro d
          rw [List.getElem?_mapIdx, List.getElem?_map]
          cases hd : conv[d]? with
          | none => rfl
          | some l =>
            rw [Option.map_some, Option.map_some, (h conv (by simp) l (List.mem_of_getElem? hd)).freeze]
        simp only [freezeConvs, e, List.map_cons]
        rw [ih _ fun c hc => h c (by simp [hc])]
    have hfr : net.frozen CINTrain.freeze CINLevel.rule (cs.map fun c => c.view.upTo mB) =
        net.evalMode CINTrain.eval := by
      unfold CINNet.frozen CINNet.evalMode
      rw [key _ _ hrow]
    have hfit := hn.frozen (cs.map fun c => c.view.upTo mB)
    rw [hfr] at hfit ⊢
    exact CINNet.forward_all realises_cin hfit hne hr h0 mB

end

/-! ### Examples -/

section Examples
open Fixtures Spiders

/-- A CIN level with concrete maps. -/
def trainCINQ (n : NormNet ℚ) : CINTrain ℚ ℚ where
  upAlone x := x
  up x a := x + 2 * a
  upNorm := n
  down x a := x - a
  downNorm := n
  pre x := 3 * x + 1
  norm := n
  eps := 0

/-- A CIN network. -/
def trainNetCINQ (n : NormNet ℚ) : CINNet ℚ (CINTrain ℚ ℚ) where
  convs := [[trainCINQ n, trainCINQ n, trainCINQ n]]
  act x := x
  lin1 x := 2 * x
  lin2 x := x + 5

theorem trainNetCINQ_fits (n : NormNet ℚ) : (trainNetCINQ n).Fits :=
  ⟨by simp [trainNetCINQ], by simp [trainNetCINQ], .inl rfl⟩

/-- Two vertices. -/
def oneWayV : Cochain ℚ Nat where
  dim := 0
  upperIndex := some [(0, 1)]
  sharedCoboundaries := some [0]
  x := some [1, 2]
  numCellsUpAttr := some (some 2)

/-- Two edges between them. -/
def oneWayE : Cochain ℚ Nat where
  dim := 1
  boundaryIndex := some [(0, 0), (1, 0), (0, 1), (1, 1)]
  x := some [3, 4]
  numCellsDownAttr := some (some 2)

/-- Two vertices and two edges between them, where only one of the two directions is recorded, for one of the
edges. -/
def oneWayQ : Complex ℚ Nat where
  dimension := 1
  cochains := [oneWayV, oneWayE]
  y := some [0]

theorem oneWayQ_ready : oneWayQ.Ready := ⟨validB_sound (by decide), by unfold Complex.Featured; decide, rfl⟩

/-- **C109** (negative) With batch normalisation, what CIN0 gives a complex in training mode depends on the rest of
the batch; and on complexes whose adjacencies are not recorded in both directions it can raise although the epoch
does not skip the batch. -/
theorem C109_depends_on_the_batch_and_on_both_directions :
    (∃ (net : CINNet ℚ (CINTrain ℚ ℚ)) (a b : Complex ℚ Nat) (p q r : ℚ), net.Fits ∧ a.Ready ∧ b.Ready ∧
      (fromComplexList [a, a] 1 >>= net.forward ℚ CINTrain.forward) = .ok [p, p] ∧
      (fromComplexList [a, b] 1 >>= net.forward ℚ CINTrain.forward) = .ok [q, r] ∧ p ≠ q) ∧
    ∃ (net : CINNet ℚ (CINTrain ℚ ℚ)) (c B : Complex ℚ Nat), net.Fits ∧ c.Ready ∧
      fromComplexList [c] 2 = .ok B ∧ numSamples (.complexes B) = .ok 2 ∧
      net.forward ℚ CINTrain.forward B = .error .value := by
  refine ⟨⟨trainNetCINQ normQ, houseQ, dotsQ, 4975155443 / 233280, 40852844629 / 2286144, 31583675 / 4704,
    trainNetCINQ_fits _, houseQ_ready, dotsQ_ready, ?_, ?_, ?_⟩, ?_⟩
  · decide +kernel
  · decide +kernel
  · decide +kernel
  · obtain ⟨B, hB⟩ := batch_exists (cs := [oneWayQ]) (by simp) (by simpa using oneWayQ_ready) 2
    refine ⟨trainNetCINQ normQ, oneWayQ, B, trainNetCINQ_fits _, oneWayQ_ready, hB, ?_, ?_⟩
    · have : (fromComplexList [oneWayQ] 2 >>= fun B => numSamples (.complexes B)) = .ok 2 := by decide
      rwa [hB, ok_bind] at this
    · have : (fromComplexList [oneWayQ] 2 >>= (trainNetCINQ normQ).forward ℚ CINTrain.forward) = .error .value := by
        decide +kernel
      rwa [hB, ok_bind] at this

/-- Two houses run; the house and the segment together have one triangle. -/
example : ¬ (trainNetCINQ normQ).LonelyRow ([houseQ, houseQ].map fun c => c.view.upTo 2) ∧
    (trainNetCINQ normQ).LonelyRow ([houseQ, segQ].map fun c => c.view.upTo 2) ∧
    (fromComplexList [houseQ, houseQ] 2 >>= (trainNetCINQ normQ).forward ℚ CINTrain.forward) =
      .ok [5230568243 / 233280, 5230568243 / 233280] ∧
    (fromComplexList [houseQ, segQ] 2 >>= (trainNetCINQ normQ).forward ℚ CINTrain.forward) = .error .value := by
  have hone : (trainNetCINQ normQ).LonelyRow ([houseQ, segQ].map fun c => c.view.upTo 2) :=
    ⟨_, by simp [trainNetCINQ]; rfl, 2, trainCINQ normQ, rfl, .inr (.inr ⟨rfl, by decide⟩)⟩
  refine ⟨?_, hone, by decide +kernel, ?_⟩
  · intro h
    have h1 := (C109_cin_in_training_mode _ (trainNetCINQ_fits normQ) [houseQ, houseQ] (by simp)
      (by simpa using houseQ_ready) (by decide) 2).1 h
    have h2 : (fromComplexList [houseQ, houseQ] 2 >>= (trainNetCINQ normQ).forward ℚ CINTrain.forward) =
        .ok [5230568243 / 233280, 5230568243 / 233280] := by decide +kernel
    rw [h1] at h2
    cases h2
  · exact (C109_cin_in_training_mode _ (trainNetCINQ_fits normQ) _ (by simp)
      (by simpa using ⟨houseQ_ready, segQ_ready⟩) (by decide) 2).1 hone

/-- Two trees as clique complexes, and their batch is not skipped. -/
example : ∃ B n preds, (mapE (FGraph.lift plainGudhi List.sum 2 true) [legs221, legs113] >>= fun cs =>
      fromComplexList cs 2) = .ok B ∧ numSamples (.complexes B) = .ok n ∧ 2 ≤ n ∧
    (trainNetCINQ normQ).forward ℚ CINTrain.forward B = .ok preds ∧ preds.length = 2 := by
  obtain ⟨c, e, r, z, f, -⟩ := clique_fromFaces plainGudhi_ok sum_perm 2 legs221_ok
  obtain ⟨d, e', r', z', f', -⟩ := clique_fromFaces plainGudhi_ok sum_perm 2 legs113_ok
  have hm : mapE (FGraph.lift plainGudhi List.sum 2 true) [legs221, legs113] = .ok [c, d] := by
    simp only [mapE, e, e', ok_bind, pure_eq_ok]
  obtain ⟨B, hB⟩ := batch_exists (cs := [c, d]) (by simp) (by simpa using ⟨r, r'⟩) 2
  have hs : (mapE (FGraph.lift plainGudhi List.sum 2 true) [legs221, legs113] >>= fun cs =>
      fromComplexList cs 2 >>= fun B => numSamples (.complexes B)) = .ok 10 := by decide +kernel
  rw [hm, ok_bind, hB, ok_bind] at hs
  obtain ⟨preds, hp, hl⟩ := C109_trained_batches_run (trainNetCINQ normQ) (trainNetCINQ_fits _) [c, d] (by simp)
    (by simpa using ⟨r, r'⟩) (by simpa using ⟨z, z'⟩) (by simpa using ⟨f, f'⟩) 2 B hB 10 hs (by decide)
  exact ⟨B, 10, preds, by rw [hm, ok_bind, hB], hs, by decide, hp, hl⟩

/-- The same trees, and the hexagon, the shed and the triangles with their rings. -/
example := C109_lifted_graphs (trainNetCINQ normQ) (trainNetCINQ_fits _) plainGudhi plainGudhi_ok plainRings plainRings_ok
  List.sum sum_perm 2 6 2 [legs221, legs113] (by simp) (by simpa using ⟨legs221_ok, legs113_ok⟩) [hexG, shedG, triG]
  (by simp) (by simpa using ⟨hexG_ok.1, shedG_ok, triG_ok.1⟩)

/-- The house and the dots, and the dots and the renumbered house. -/
example := C109_training_does_not_depend_on_numbering (trainNetCINQ normQ) (trainNetCINQ_fits _)
  [houseQ, dotsQ] [dotsQ, houseQ] [dotsQ, houseQ.relabel (swap01 houseQ)] (by simp)
  (by simpa using ⟨houseQ_ready, dotsQ_ready⟩)
  (by simpa using ⟨dotsQ_ready, houseQ_ready.relabel (swap01_permutes houseQ)⟩) (by decide)
  (List.Perm.swap _ _ _)
  (.cons ⟨fun _ k => k, ⟨fun _ => rfl, fun _ _ _ _ _ h => h, fun _ _ _ => rfl, by simp, by simp, by simp⟩⟩
    (.cons ⟨_, houseQ_ready.relabels (swap01_permutes houseQ)⟩ .nil)) 1

/-- The predictions of the batch that the theorem permutes. -/
example : (fromComplexList [dotsQ, houseQ.relabel (swap01 houseQ)] 1 >>=
    (trainNetCINQ normQ).forward ℚ CINTrain.forward) = .ok [31583675 / 4704, 40852844629 / 2286144] := by
  decide +kernel

/-- Without batch normalisation a single triangle does no harm. -/
example := C109_without_batch_normalisation (trainNetCINQ (.rowwise id)) (trainNetCINQ_fits _) (by
    simp only [trainNetCINQ, forall_eq, List.mem_cons, List.not_mem_nil, or_false, or_self]
    exact ⟨rfl, rfl, rfl⟩) [houseQ, segQ] (by simp) (by simpa using ⟨houseQ_ready, segQ_ready⟩) (by decide) 2

end Examples

end Verif
