import Verif.Lemmas.GINTrain
import Verif.Props.GraphNets
import Verif.Props.RingNets
import Verif.Props.TrainMode

/-!
# C110: the graph baselines in training mode
-/

namespace Verif

section
variable {𝕜 R L : Type} [Field 𝕜] [AddCommMonoid R] [Module 𝕜 R]

/-- **C110** What GIN0, GIN, GIN0WithJK and GINWithJK compute for a batch in training mode: with batch normalisation
and a single node in the whole batch, an exception; otherwise, for each graph, what the network computes in
evaluation mode when its running statistics are those that the nodes of all graphs of the batch have in each layer. -/
theorem C110_gin_in_training_mode (net : GINTrainNet 𝕜 R) (hread : net.readout = "sum" ∨ net.readout = "mean")
    (gs : List (GData R)) (hne : gs ≠ []) (h : ∀ g ∈ gs, g.Ok) :
    (net.usesBatch ∧ nodeCount gs = 1 → net.forward (gBatch gs) = .error .value) ∧
    (¬ (net.usesBatch ∧ nodeCount gs = 1) →
      net.forward (gBatch gs) = .ok (gs.map (net.frozen gs).predict)) := by
  obtain ⟨h1, h2⟩ := net.forward_train h
  refine ⟨h1, fun h3 => ?_⟩
  rw [h2 h3]
  exact (C67_predictions_do_not_depend_on_the_batch (net.frozen gs) hread gs hne h).1

/-- **C110** RingGIN likewise: the predictions for the marked nodes of each graph, graph by graph. -/
theorem C110_ring_gin_in_training_mode (net : RingGINTrain 𝕜 R) (gs : List (GData R)) (h : ∀ g ∈ gs, g.Ok)
    (hm : ∀ g ∈ gs, g.mask.length = g.x.length) :
    (net.usesBatch ∧ nodeCount gs = 1 → net.forward (gBatch gs) = .error .value) ∧
    (¬ (net.usesBatch ∧ nodeCount gs = 1) →
      net.forward (gBatch gs) = .ok (gs.flatMap (net.frozen gs).predict)) := by
  obtain ⟨h1, h2⟩ := net.forward_train h
  refine ⟨h1, fun h3 => ?_⟩
  rw [h2 h3]
  obtain ⟨preds, h4, h5⟩ := C69_ring_gin_predictions_do_not_depend_on_the_batch (net.frozen gs) gs h hm
  rw [h4, ok_inj]
  exact List.flatMap_congr fun g hg => (h5 g hg).2.2

/-- **C110** The batches of graphs that an epoch does not skip never make the models raise. -/
theorem C110_trained_batches_run (net : GINTrainNet 𝕜 R) (hread : net.readout = "sum" ∨ net.readout = "mean")
    (ring : RingGINTrain 𝕜 R) (gs : List (GData R)) (hne : gs ≠ []) (h : ∀ g ∈ gs, g.Ok)
    (hm : ∀ g ∈ gs, g.mask.length = g.x.length) (n : Nat)
    (hs : numSamples (F := R) (L := L) (.graphs (gBatch gs).x.length) = .ok n) (h2 : 2 ≤ n) :
    (∃ preds, net.forward (gBatch gs) = .ok preds ∧ preds.length = gs.length) ∧
    ∃ preds, ring.forward (gBatch gs) = .ok preds := by
  have hn : nodeCount gs = n := by
    simp only [numSamples, ok_inj, gBatch_size] at hs
    exact hs
  exact ⟨⟨_, (C110_gin_in_training_mode net hread gs hne h).2 (by omega), by simp⟩,
    ⟨_, (C110_ring_gin_in_training_mode ring gs h hm).2 (by omega)⟩⟩

/-- **C110** In training mode too they are at most as powerful as the Weisfeiler-Lehman test, on whole batches: if
the graphs of two batches, paired up in some order, are not told apart by the test in as many rounds as the network
has layers, then both batches raise, or the graphs of each pair get the same prediction. -/
theorem C110_same_colours_same_prediction (net : GINTrainNet 𝕜 R)
    (hread : net.readout = "sum" ∨ net.readout = "mean") (n : Nat) (hn : net.convs.length + 1 ≤ n)
    (gs gs' hs : List (GData R)) (hne : gs ≠ []) (hg : ∀ g ∈ gs, g.Ok) (hh : ∀ h ∈ hs, h.Ok)
    (hp : gs.Perm gs') (hsame : List.Forall₂ (fun g h => SameNodes g h n) gs' hs) :
    (net.forward (gBatch gs) = .error .value ∧ net.forward (gBatch hs) = .error .value) ∨
    ∃ f : GData R → R, net.forward (gBatch gs) = .ok (gs.map f) ∧ net.forward (gBatch hs) = .ok (gs'.map f) := by
  have hne' : hs ≠ [] := by
    rintro rfl
    cases hsame
    exact hne hp.eq_nil
  have hcount : nodeCount hs = nodeCount gs := by
    rw [← nodeCount_colours hsame]
    unfold nodeCount
    exact (hp.map _).sum_eq.symm
  have hfr : net.frozen hs = net.frozen gs := by
    apply GINTrainNet.frozen_eq
    rw [← freezeGIN_colours (by simpa using hn) hsame]
    exact freezeGIN_perm hp.symm
  obtain ⟨h1, h2⟩ := C110_gin_in_training_mode net hread gs hne hg
  obtain ⟨h1', h2'⟩ := C110_gin_in_training_mode net hread hs hne' hh
  rw [hcount] at h1' h2'
  by_cases hl : net.usesBatch ∧ nodeCount gs = 1
  · exact .inl ⟨h1 hl, h1' hl⟩
  · refine .inr ⟨_, h2 hl, ?_⟩
    rw [h2' hl, hfr, ok_inj]
    have hlen : (net.frozen gs).convs.length + 1 ≤ n := by
      have : ∀ (ls : List (GINTrain 𝕜 R)) (gs : List (GData R)), (freezeGIN gs ls).length = ls.length := by
        intro ls
        induction ls with
        | nil => intro _; rfl
        | cons l ls ih => intro gs; simp [freezeGIN, ih]
      simpa [GINTrainNet.frozen, this] using hn
    generalize net.frozen gs = fz at hlen
    clear * - hsame hlen
    induction hsame with
    | nil => rfl
    | cons h _ ih => rw [List.map_cons, List.map_cons, ih, h.predict hlen]

/-- **C110** In particular neither the order of the graphs nor the numbering of their nodes matters. -/
theorem C110_isomorphic_graphs_same_prediction (net : GINTrainNet 𝕜 R)
    (hread : net.readout = "sum" ∨ net.readout = "mean") (gs gs' hs : List (GData R)) (hne : gs ≠ [])
    (hg : ∀ g ∈ gs, g.Ok) (hh : ∀ h ∈ hs, h.Ok) (hp : gs.Perm gs')
    (hiso : List.Forall₂ (fun g h => ∃ φ, GData.Iso g h φ) gs' hs) :
    (net.forward (gBatch gs) = .error .value ∧ net.forward (gBatch hs) = .error .value) ∨
    ∃ f : GData R → R, net.forward (gBatch gs) = .ok (gs.map f) ∧ net.forward (gBatch hs) = .ok (gs'.map f) := by
  refine C110_same_colours_same_prediction net hread _ (Nat.le_refl _) gs gs' hs hne hg hh hp ?_
  rw [List.forall₂_iff_get] at hiso ⊢
  refine ⟨hiso.1, fun i h1 h2 => ?_⟩
  obtain ⟨φ, hφ⟩ := hiso.2 i h1 h2
  exact hφ.colours (hg _ (hp.mem_iff.mpr (List.get_mem _ _))) _

/-- **C110** Two graphs of one batch that the test does not tell apart get the same prediction. -/
theorem C110_same_colours_in_one_batch (net : GINTrainNet 𝕜 R)
    (hread : net.readout = "sum" ∨ net.readout = "mean") (n : Nat) (hn : net.convs.length + 1 ≤ n)
    (gs : List (GData R)) (hg : ∀ g ∈ gs, g.Ok) (preds : List R) (hp : net.forward (gBatch gs) = .ok preds)
    (i j : Nat) (g h : GData R) (hi : gs[i]? = some g) (hj : gs[j]? = some h) (hs : SameNodes g h n) :
    preds[i]? = preds[j]? := by
  have hne : gs ≠ [] := by
    rintro rfl
    simp at hi
  obtain ⟨h1, h2⟩ := C110_gin_in_training_mode net hread gs hne hg
  by_cases hl : net.usesBatch ∧ nodeCount gs = 1
  · rw [h1 hl] at hp
    cases hp
  · rw [h2 hl, ok_inj] at hp
    subst hp
    have hlen : (net.frozen gs).convs.length + 1 ≤ n := by
      have : ∀ (ls : List (GINTrain 𝕜 R)) (gs : List (GData R)), (freezeGIN gs ls).length = ls.length := by
        intro ls
        induction ls with
        | nil => intro _; rfl
        | cons l ls ih => intro gs; simp [freezeGIN, ih]
      simpa [GINTrainNet.frozen, this] using hn
    rw [List.getElem?_map, List.getElem?_map, hi, hj, Option.map_some, Option.map_some, hs.predict hlen]

/-- **C110** Without batch normalisation (`graph_norm` may be the identity or a layer normalisation in RingGIN) the
models compute the same in training mode and in evaluation mode. -/
theorem C110_without_batch_normalisation (net : GINTrainNet 𝕜 R) (hnet : ¬ net.usesBatch) (ring : RingGINTrain 𝕜 R)
    (hring : ¬ ring.usesBatch) (gs : List (GData R)) (h : ∀ g ∈ gs, g.Ok) :
    net.forward (gBatch gs) = net.eval.forward (gBatch gs) ∧
      ring.forward (gBatch gs) = ring.eval.forward (gBatch gs) := by
  have hfz : ∀ (l : GINTrain 𝕜 R), ¬ l.nn.isBatch = true → ∀ gs : List (GData R), l.freeze gs = l.eval := by
    intro l hl gs
    simp only [UpdateNet.isBatch, Bool.or_eq_true, not_or, Bool.not_eq_true] at hl
    unfold GINTrain.freeze GINTrain.eval UpdateNet.freeze
    simp only [NormNet.freeze_rowwise hl.1, NormNet.freeze_rowwise hl.2]
    rfl
  have hall : ∀ (ls : List (GINTrain 𝕜 R)), (∀ l ∈ ls, ¬ l.nn.isBatch = true) → ∀ gs : List (GData R),
      freezeGIN gs ls = ls.map GINTrain.eval := by
    intro ls
    induction ls with
    | nil => intros; rfl
    | cons l ls ih =>
      intro hl gs
      rw [freezeGIN, hfz l (hl l (by simp)), ih fun l' h' => hl l' (by simp [h'])]
      rfl
  have h1 : ∀ l ∈ net.conv1 :: net.convs, ¬ l.nn.isBatch = true := fun l hl hb => hnet ⟨l, hl, hb⟩
  have h2 : ∀ l ∈ ring.conv1 :: ring.convs, ¬ l.nn.isBatch = true := fun l hl hb => hring ⟨l, hl, hb⟩
  constructor
  · rw [(net.forward_train h).2 fun hb => hnet hb.1]
    have : net.frozen gs = net.eval := by
      unfold GINTrainNet.frozen GINTrainNet.eval
      rw [hall _ (fun l hl => h1 l (by simp [hl])), hfz _ (h1 _ (by simp))]
    rw [this]
  · rw [(ring.forward_train h).2 fun hb => hring hb.1]
    have : ring.frozen gs = ring.eval := by
      unfold RingGINTrain.frozen RingGINTrain.eval
      simp only [hall ring.convs (fun l hl => h2 l (by simp [hl])), hfz ring.conv1 (h2 _ (by simp))]
    rw [this]

end

/-! ### Examples -/

section Examples
open Fixtures

/-- A GIN with two layers and jumping knowledge. -/
def trainGINQ (n : NormNet ℚ) : GINTrainNet ℚ ℚ where
  conv1 := ⟨updateQ n, 0⟩
  convs := [⟨updateQ n, 1 / 2⟩]
  jump := some List.sum
  readout := "mean"
  act := id
  lin1 x := 2 * x
  lin2 x := x + 5

/-- A RingGIN. -/
def trainRingGINQ (n : NormNet ℚ) : RingGINTrain ℚ ℚ where
  initLinear x := 2 * x
  conv1 := ⟨updateQ n, 1⟩
  convs := [⟨updateQ n, 0⟩]
  act x := x * x
  lin1 x := x + 3

/-- A graph with one node. -/
def dotD : GData ℚ := { x := [4], edges := [], mask := [true] }

theorem pathD_ok : pathD.Ok := ⟨by decide, by decide⟩
theorem pathD'_ok : pathD'.Ok := ⟨by decide, by decide⟩
theorem dotD_ok : dotD.Ok := ⟨by decide, by decide⟩
theorem triD_ok : triD.Ok := ⟨by decide, by decide⟩
theorem legD_ok : legD.Ok := ⟨by decide, by decide⟩

theorem pathD_iso : pathD.Iso pathD' (fun c => [0, 2, 1].getD c 0) := by
  refine ⟨rfl, ?_, ?_, by decide⟩
  · have : ∀ c < 3, ∀ e < 3, ([0, 2, 1] : List Nat).getD c 0 = ([0, 2, 1] : List Nat).getD e 0 → c = e := by decide
    exact fun c e hc he => this c hc e he
  have : ∀ c < 3, pathD'.x[([0, 2, 1] : List Nat).getD c 0]? = pathD.x[c]? := by decide +kernel
  exact this

/-- **C110** (negative) With batch normalisation, what a graph gets in training mode depends on the rest of the batch;
alone in its batch, a graph with one node makes the models raise. -/
theorem C110_depends_on_the_batch :
    ∃ (net : GINTrainNet ℚ ℚ) (a b c : GData ℚ) (p q r : ℚ), a.Ok ∧ b.Ok ∧ c.Ok ∧
      net.forward (gBatch [a, a]) = .ok [p, p] ∧ net.forward (gBatch [a, b]) = .ok [q, r] ∧ p ≠ q ∧
      net.forward (gBatch [c]) = .error .value ∧ (∃ s t, net.forward (gBatch [c, a]) = .ok [s, t]) := by
  refine ⟨trainGINQ normQ, pathD, triD, dotD, 109213 / 729, 192637 / 729, 228061 / 729, pathD_ok, triD_ok, dotD_ok,
    ?_, ?_, ?_, ?_, 217, 779 / 3, ?_⟩ <;>
    decide +kernel

/-- The network uses statistics of the batch, and the predictions are those of the network with these statistics. -/
example : (trainGINQ normQ).usesBatch ∧ nodeCount [pathD, triD] = 6 ∧
    [pathD, triD].map ((trainGINQ normQ).frozen [pathD, triD]).predict = [192637 / 729, 228061 / 729] := by
  refine ⟨⟨_, List.mem_cons_self, rfl⟩, by decide, ?_⟩
  have h := (C110_gin_in_training_mode (trainGINQ normQ) (.inr rfl) [pathD, triD] (by simp)
    (by simpa using ⟨pathD_ok, triD_ok⟩)).2 (by
      rintro ⟨-, h⟩
      revert h
      decide)
  have h' : (trainGINQ normQ).forward (gBatch [pathD, triD]) = .ok [192637 / 729, 228061 / 729] := by decide +kernel
  rw [h, ok_inj] at h'
  exact h'

/-- Predictions for three marked nodes. -/
def trainRingPreds : List ℚ := [2315310886379 / 9765625, 2315310886379 / 9765625, 2305612886379 / 9765625]

/-- RingGIN on a batch with three marked nodes. -/
example : (trainRingGINQ normQ).forward (gBatch [triD, legD]) = .ok trainRingPreds ∧
    (trainRingGINQ normQ).forward (gBatch [dotD]) = .error .value ∧
    [triD, legD].flatMap ((trainRingGINQ normQ).frozen [triD, legD]).predict = trainRingPreds := by
  have h := (C110_ring_gin_in_training_mode (trainRingGINQ normQ) [triD, legD] (by simpa using ⟨triD_ok, legD_ok⟩)
    (by decide)).2 (by
      rintro ⟨-, h⟩
      revert h
      decide)
  have h' : (trainRingGINQ normQ).forward (gBatch [triD, legD]) = .ok trainRingPreds := by decide +kernel
  refine ⟨h', by decide +kernel, ?_⟩
  rw [h, ok_inj] at h'
  exact h'

/-- Five nodes are enough not to be skipped. -/
example := C110_trained_batches_run (L := Nat) (trainGINQ normQ) (.inr rfl) (trainRingGINQ normQ) [triD, legD] (by simp)
  (by simpa using ⟨triD_ok, legD_ok⟩) (by decide) 5 rfl (by decide)

/-- The path and the dot, and the dot and the renumbered path. -/
example := C110_isomorphic_graphs_same_prediction (trainGINQ normQ) (.inr rfl) [pathD, dotD] [dotD, pathD]
  [dotD, pathD'] (by simp) (by simpa using ⟨pathD_ok, dotD_ok⟩) (by simpa using ⟨dotD_ok, pathD'_ok⟩)
  (List.Perm.swap _ _ _)
  (.cons ⟨id, rfl, fun _ _ _ _ h => h, fun _ _ => rfl, by decide⟩ (.cons ⟨_, pathD_iso⟩ .nil))

example : (trainGINQ normQ).forward (gBatch [pathD, dotD]) = .ok [779 / 3, 217] ∧
    (trainGINQ normQ).forward (gBatch [dotD, pathD']) = .ok [217, 779 / 3] := by decide +kernel

/-- The hexagon and the two triangles in one batch with a path: the first two get the same prediction. -/
example (preds : List ℚ) (h : (trainGINQ normQ).forward (gBatch [hexG.data, triG.data, pathD]) = .ok preds) :
    preds[0]? = preds[1]? :=
  C110_same_colours_in_one_batch (trainGINQ normQ) (.inr rfl) 2 (by decide) [hexG.data, triG.data, pathD]
    (by simpa using ⟨⟨by decide, by decide⟩, ⟨by decide, by decide⟩, pathD_ok⟩) preds h 0 1 _ _ rfl rfl (hexG_alike 2)

example : (trainGINQ normQ).forward (gBatch [hexG.data, triG.data, pathD]) =
    .ok [56931853 / 455625, 56931853 / 455625, 75939853 / 455625] := by decide +kernel

/-- Without batch normalisation a single node does no harm. -/
example : (trainGINQ (.rowwise id)).forward (gBatch [dotD]) = (trainGINQ (.rowwise id)).eval.forward (gBatch [dotD]) ∧
    ∃ p, (trainGINQ (.rowwise id)).forward (gBatch [dotD]) = .ok [p] := by
  have hu : ¬ (trainGINQ (.rowwise id)).usesBatch := by
    rintro ⟨l, hl, h⟩
    simp only [trainGINQ, List.mem_cons, List.not_mem_nil, or_false] at hl
    rcases hl with rfl | rfl <;> cases h
  have hr : ¬ (trainRingGINQ (.rowwise id)).usesBatch := by
    rintro ⟨l, hl, h⟩
    simp only [trainRingGINQ, List.mem_cons, List.not_mem_nil, or_false] at hl
    rcases hl with rfl | rfl <;> cases h
  refine ⟨(C110_without_batch_normalisation _ hu _ hr [dotD] (by simpa using dotD_ok)).1, 89, ?_⟩
  decide +kernel

end Examples

end Verif
