import Verif.Model.OrientFlow
import Verif.Props.FlowTests

/-!
# C126: The oriented layers and networks work on every sample of the flow dataset
-/

namespace Verif

variable {R L P D 𝕜 : Type} [AddCommGroup R]

theorem buildCochain_noCount {lib : SparseLib} {B1 B2 T2 : Mat} {x : List R} {label : L}
    {numEdges : Option Nat} {c : Cochain R L} (h : buildCochain lib B1 B2 T2 x label numEdges = .ok c) :
    c.numCellsAttr = none := by
  unfold buildCochain at h
  obtain ⟨B1', -, h⟩ := bind_eq_ok.mp h
  obtain ⟨B2', -, h⟩ := bind_eq_ok.mp h
  obtain ⟨lower, -, h⟩ := bind_eq_ok.mp h
  obtain ⟨upper, -, h⟩ := bind_eq_ok.mp h
  obtain ⟨x', -, h⟩ := bind_eq_ok.mp h
  have e : ∀ d : Cochain R L, d.dim = 1 → Cochain.mk? d = .ok d := by
    intro d hd
    unfold Cochain.mk?
    rw [if_neg (by rw [hd]; decide)]
    rfl
  rw [e _ rfl, ok_inj] at h
  subst h
  rfl

theorem flowSamples_noCount [LinearOrder D] {lib : SparseLib} {rg : FlowRegions P} {dist : P → P → D} {toRow : Int → R}
    {points : List P} {G : FlowGraph} {B1 B2 : Mat} {n : Nat} {o : String} {bits : Nat → Nat → Bool} {draws : Nat → List Draw}
    {cs : List (Cochain R Nat)} (h : flowSamples lib rg dist toRow points G B1 B2 n o bits draws = .ok cs) :
    ∀ c ∈ cs, c.numCellsAttr = none := by
  intro c hc
  obtain ⟨i, -, hi⟩ := singles_left (mapE_eq_ok_iff.mp h).flip c hc
  obtain ⟨cl, -, hi⟩ := bind_eq_ok.mp hi
  obtain ⟨T2, -, hi⟩ := bind_eq_ok.mp hi
  unfold generateFlowCochain at hi
  obtain ⟨u, -, hi⟩ := bind_eq_ok.mp hi
  obtain ⟨t, -, hi⟩ := bind_eq_ok.mp hi
  cases t with
  | none => cases hi
  | some t => exact buildCochain_noCount hi

/-- What is known of every sample of a dataset that could be made. -/
theorem sample_single [LinearOrder D] {lib : SparseLib} (hlib : lib.Correct) {rg : FlowRegions P} {dist : P → P → D}
    {toRow : Int → R} {points : List P} {simplices : List Tri} (ht : Triangulates points simplices)
    (hdiff : DifferentTriangles simplices) {numTrain numTest : Nat} {trainO testO : String} {trainD testD : SampleDraws}
    {train test : List (Cochain R Nat)} {G : FlowGraph}
    (h : loadFlowDataset lib rg dist toRow points simplices numTrain numTest trainO testO trainD testD =
      .ok (train, test, G)) :
    ∀ c ∈ train ++ test, ∃ d, Single c d ∧ d.x.length = G.edges.length := by
  have hex : ∃ t ∈ simplices, Outside points rg.hole1 t ∧ Outside points rg.hole2 t := by
    unfold loadFlowDataset at h
    obtain ⟨r, hr, -⟩ := bind_eq_ok.mp h
    exact flowTriangulation_some ht hr
  obtain ⟨points', triangles', ρ, G', B1, B2, edges, wh, ht', hG, hs, hdict, hel, hb, heq⟩ :=
    loadFlowDataset_eq lib hlib rg dist toRow ht hdiff hex
  obtain ⟨t', ht2⟩ : ∃ t', t' ∈ triangles' := by
    obtain ⟨t, h1, h2⟩ := hex
    exact ⟨_, by rw [wh.kept]; exact List.mem_map_of_mem (List.mem_filter.mpr ⟨h1, decide_eq_true h2⟩)⟩
  rw [heq] at h
  obtain ⟨tr, h1, h⟩ := bind_eq_ok.mp h
  obtain ⟨te, h2, h⟩ := bind_eq_ok.mp h
  rw [ok_inj, Prod.mk.injEq, Prod.mk.injEq] at h
  obtain ⟨rfl, rfl, rfl⟩ := h
  obtain ⟨-, a2, -, -⟩ := flowSamples_done hlib rg dist toRow hG hdict hel hb h1
  obtain ⟨-, b2, -, -⟩ := flowSamples_done hlib rg dist toRow hG hdict hel hb h2
  have key : ∀ {o n i} {c : Cochain R Nat}, c.numCellsAttr = none →
      FlowSample rg toRow points' triangles' edges o n i c → ∃ d, Single c d ∧ d.x.length = G'.edges.length := by
    rintro o n i c hn ⟨s, path, hsg, -, -, hitem⟩
    have hck := checkAdjacencies_ok hsg hitem ht2 (ht'.distinct t' ht2)
      (fun u v huv hu hv => (hs.mem u v).mpr ⟨huv, t', ht2, hu, hv⟩)
      (fun w hw => List.mem_range.mpr (ht'.corners t' ht2 w hw))
    obtain ⟨x, ui, uo, li, lo, hx, hui, huo, hli, hlo, k1, k2, ⟨k3, k4⟩, ⟨k5, k6⟩, -⟩ :=
      (C117_what_the_checks_detect c).mp hck
    refine ⟨⟨x, ui, li, uo, lo⟩, ⟨⟨hx, hui, hli, huo, hlo⟩, ⟨k1, k2, k4, k6⟩, k3, k5, ?_, hitem.noBatch.1, hitem.noBatch.2,
      hitem.edgeOnly⟩, ?_⟩
    · unfold Cochain.numCells
      rw [hn, hx]
    · have := hitem.x
      rw [hx, Option.some.injEq] at this
      rw [← hel, this]
      simp
  intro c hc
  rcases List.mem_append.mp hc with hc | hc
  · obtain ⟨i, hi⟩ := List.getElem?_of_mem hc
    exact key (flowSamples_noCount h1 c hc) (a2 i c hi)
  · obtain ⟨i, hi⟩ := List.getElem?_of_mem hc
    exact key (flowSamples_noCount h2 c hc) (b2 i c hi)

section main
variable [LinearOrder D] (lib : SparseLib) (hlib : lib.Correct) (rg : FlowRegions P) (dist : P → P → D) (toRow : Int → R)
  (points : List P) (simplices : List Tri) (ht : Triangulates points simplices) (hdiff : DifferentTriangles simplices)
  (numTrain numTest : Nat) (trainO testO : String) (trainD testD : SampleDraws)
include hlib ht hdiff

/-- **C126** The oriented layer works on every sample of the flow dataset, whatever its maps, and gives one row for every
edge of the triangulation. -/
theorem C126_layer_on_samples (train test : List (Cochain R Nat)) (G : FlowGraph)
    (h : loadFlowDataset lib rg dist toRow points simplices numTrain numTest trainO testO trainD testD =
      .ok (train, test, G)) (l : OrientedLevel R) (c : Cochain R Nat) (hc : c ∈ train ++ test) :
    ∃ out, l.forward c = .ok out ∧ out.length = G.edges.length := by
  obtain ⟨d, hd, hlen⟩ := sample_single hlib ht hdiff h c hc
  exact ⟨_, l.forward_ok (hd.holds.oriented hd.ok hd.une hd.lne), by simpa using hlen⟩

omit [AddCommGroup R] hlib ht hdiff in
/-- **C126** What the test of the oriented layer detects, for every program in place of the layer: it passes exactly if the
program returns one row for every edge on the first training sample. -/
theorem C126_what_the_test_detects [AddCommGroup R] (forward : Cochain R Nat → Py (List R)) :
    orientFlowTest lib rg dist toRow points simplices numTrain numTest trainO testO trainD testD forward = .ok () ↔
      ∃ c train test G out, loadFlowDataset lib rg dist toRow points simplices numTrain numTest trainO testO trainD testD =
        .ok (c :: train, test, G) ∧ forward c = .ok out ∧ out.length = G.edges.length := by
  constructor
  · intro h
    unfold orientFlowTest at h
    obtain ⟨⟨train, test, G⟩, h1, h⟩ := bind_eq_ok.mp h
    obtain ⟨c, h2, h⟩ := bind_eq_ok.mp h
    obtain ⟨out, h3, h4⟩ := bind_eq_ok.mp h
    rw [pyAssert_eq_ok, beq_iff_eq] at h4
    cases train with
    | nil => cases h2
    | cons c' train =>
      cases ok_inj.mp h2
      exact ⟨_, train, test, G, out, h1, h3, h4⟩
  · rintro ⟨c, train, test, G, out, h1, h3, h4⟩
    unfold orientFlowTest
    rw [h1, ok_bind]
    show (getAt (c :: train) 0 >>= fun c => forward c >>= fun out => pyAssert (out.length == G.edges.length)) = _
    rw [show getAt (c :: train) 0 = .ok c from rfl, ok_bind, h3, ok_bind, h4]
    simp [pyAssert]

/-- **C126** The test of the oriented layer passes exactly if the dataset can be made and has a training sample. -/
theorem C126_orient_test (l : OrientedLevel R) :
    orientFlowTest lib rg dist toRow points simplices numTrain numTest trainO testO trainD testD l.forward = .ok () ↔
      0 < numTrain ∧ ∃ r, loadFlowDataset lib rg dist toRow points simplices numTrain numTest trainO testO trainD testD =
        .ok r := by
  unfold orientFlowTest
  cases hr : loadFlowDataset lib rg dist toRow points simplices numTrain numTest trainO testO trainD testD with
  | error e => simp [error_bind]
  | ok r =>
    obtain ⟨train, test, G⟩ := r
    rw [ok_bind]
    obtain ⟨-, -, -, -, -, -, hlen, -⟩ := C84_flow_items lib hlib rg dist toRow points simplices ht hdiff numTrain numTest
      trainO testO trainD testD train test G hr
    cases train with
    | nil =>
      simp only [List.length_nil] at hlen
      simp [getAt, error_bind, ← hlen]
    | cons c cs =>
      obtain ⟨out, e, hout⟩ := C126_layer_on_samples lib hlib rg dist toRow points simplices ht hdiff numTrain numTest trainO
        testO trainD testD (c :: cs) test G hr l c (by simp)
      have h0 : 0 < numTrain := by rw [← hlen]; simp
      simp [getAt, ok_bind, e, hout, pyAssert, h0]

/-- **C126** Every network for edge flows with at least one layer and a known readout makes predictions for all samples of
the flow dataset, one for each, in every batch. -/
theorem C126_networks_work [Field 𝕜] [CharZero 𝕜] [Module 𝕜 R] (train test : List (Cochain R Nat)) (G : FlowGraph)
    (h : loadFlowDataset lib rg dist toRow points simplices numTrain numTest trainO testO trainD testD =
      .ok (train, test, G)) (net : OrientNet R) (hconvs : net.convs ≠ []) (hread : net.readout = "sum" ∨ net.readout = "mean")
    (cs : List (Cochain R Nat)) (hne : cs ≠ []) (hcs : ∀ c ∈ cs, c ∈ train ++ test) :
    ∃ preds, (fromCochainList cs >>= net.forward 𝕜) = .ok preds ∧ preds.length = cs.length := by
  have hs := sample_single hlib ht hdiff h
  obtain ⟨pool, hpool⟩ : ∃ pool, getPoolingFn net.readout = .ok pool := by
    rcases hread with e | e <;> rw [e] <;> exact ⟨_, rfl⟩
  obtain ⟨ds, hds⟩ : ∃ ds, List.Forall₂ Single cs ds := by
    clear hne
    induction cs with
    | nil => exact ⟨[], .nil⟩
    | cons c cs ih =>
      obtain ⟨ds, hds⟩ := ih fun c' hc' => hcs c' (List.mem_cons_of_mem _ hc')
      obtain ⟨d, hd, -⟩ := hs c (hcs c (by simp))
      exact ⟨d :: ds, .cons hd hds⟩
  obtain ⟨b, hb, hf⟩ := OrientNet.forward_batch (𝕜 := 𝕜) net hne hds hconvs hpool
  refine ⟨_, by rw [hb, ok_bind]; exact hf, ?_⟩
  rw [List.length_map, hds.length_eq]

/-- **C126** So a network that is blind to orientations, with a layer and a known readout, makes the same predictions over the
validation loader whatever orientations the flow dataset is made with, without further assumptions on the network. -/
theorem C126_orientations [Field 𝕜] [CharZero 𝕜] [Module 𝕜 R] (train test : List (Cochain R Nat)) (G : FlowGraph)
    (h : loadFlowDataset lib rg dist toRow points simplices numTrain numTest trainO testO trainD testD =
      .ok (train, test, G)) (hn : 0 < numTest) (net : OrientNet R) (hnet : net.Blind) (hconvs : net.convs ≠ [])
    (hread : net.readout = "sum" ∨ net.readout = "mean") :
    ∃ preds : List R, preds.length = numTest ∧
      ∀ (trainO' testO' : String), KnownOrientation trainO' → KnownOrientation testO' →
      ∀ (trainBits testBits : Nat → Nat → Bool), ∃ train' test',
        loadFlowDataset lib rg dist toRow points simplices numTrain numTest trainO' testO'
          ⟨trainBits, trainD.draws⟩ ⟨testBits, testD.draws⟩ = .ok (train', test', G) ∧
        ∀ b, 0 < b →
          (cochainLoader (flowDataset train' test' numTrain numTest) "valid" none b >>= infer (net.forward 𝕜)) = .ok preds := by
  obtain ⟨-, -, -, -, -, -, -, -, hlen, -⟩ := C84_flow_items lib hlib rg dist toRow points simplices ht hdiff numTrain numTest
    trainO testO trainD testD train test G h
  have hone : ∀ c ∈ test, ∃ p, (fromCochainList [c] >>= net.forward 𝕜) = .ok [p] := by
    intro c hc
    obtain ⟨preds, e, hl⟩ := C126_networks_work (𝕜 := 𝕜) lib hlib rg dist toRow points simplices ht hdiff numTrain numTest
      trainO testO trainD testD train test G h net hconvs hread [c] (by simp) (by simp [hc])
    match preds, hl with
    | [p], _ => exact ⟨p, e⟩
  obtain ⟨preds, hp⟩ : ∃ preds, List.Forall₂ (fun c p => (fromCochainList [c] >>= net.forward 𝕜) = .ok [p]) test preds := by
    clear h hlen
    induction test with
    | nil => exact ⟨[], .nil⟩
    | cons c cs ih =>
      obtain ⟨ps, hps⟩ := ih fun c' hc' => hone c' (List.mem_cons_of_mem _ hc')
      obtain ⟨p, hp⟩ := hone c (by simp)
      exact ⟨p :: ps, .cons hp hps⟩
  refine ⟨preds, by rw [← hp.length_eq, hlen], ?_⟩
  intro trainO' testO' ho ho' tb eb
  exact C84_flow_predictions lib hlib rg dist toRow points simplices ht hdiff numTrain numTest trainO testO trainD testD train
    test G h hn net hnet preds hp trainO' testO' ho ho' tb eb

end main

/-- The test on the strip of triangles. -/
example : orientFlowTest rowMajorLib meshRegions gap (fun k => (k : ℚ)) mesh meshTriangles 2 2 "default" "random"
    meshDraws meshDraws (R := ℚ) (OrientedLevel.forward ⟨fun r => 2 * r, fun r => 3 * r, fun r => r, fun r => r, true⟩) = .ok () := by
  unfold orientFlowTest loadFlowDataset
  rw [mesh_with_holes meshRegions rfl rfl, ok_bind]
  decide +kernel

/-- A program that drops a row is detected. -/
example : orientFlowTest rowMajorLib meshRegions gap (fun k => (k : ℚ)) mesh meshTriangles 2 2 "default" "random"
    meshDraws meshDraws (R := ℚ) (fun c => (OrientedLevel.forward (R := ℚ)
      ⟨fun r => 2 * r, fun r => 3 * r, fun r => r, fun r => r, true⟩ c).map List.tail) = .error .assertion := by
  unfold orientFlowTest loadFlowDataset
  rw [mesh_with_holes meshRegions rfl rfl, ok_bind]
  decide +kernel

/-- A network that meets the hypotheses. -/
example : orientQ.Blind ∧ orientQ.convs ≠ [] ∧ (orientQ.readout = "sum" ∨ orientQ.readout = "mean") ∧
    KnownOrientation "random" ∧ KnownOrientation "default" :=
  ⟨orientQ_blind, by simp [orientQ], by simp [orientQ], by simp [KnownOrientation], by simp [KnownOrientation]⟩

end Verif
