import Verif.Lemmas.Config
import Verif.Spec.Config
import Verif.Props.Widths

/-!
# C86: which experiments start, and what with

`validate_args` accepts arguments dataset by dataset. For each of these datasets it is determined which accepted
arguments get through to the first epoch, and what the experiment consists of then.
-/

namespace Verif

variable {d : Disk} {k : String → Option String} {a : Args}

/-- **C86** Circular skip link graphs: accepted arguments start an experiment iff there is a ring size, the fold is one
of the five, and nonlinearity and jumping knowledge have supported names (and no tuning split is asked for). It trains
`EmbedSparseCIN` with ten classes on one type of vertices, by accuracy, and there is a test split. -/
theorem C86_csl (hd : a.dataset = "CSL") (hv : validateArgs a = .ok ()) (s : Setup) :
    startExp d k a = .ok s ↔ ∃ n f, a.maxRingSize = some n ∧ a.fold = some f ∧ f < 5 ∧ a.tune = false ∧
      okNonlinearity a.nonlinearity ∧ okJump a.jumpMode ∧
      s = { data := some { cls := .csl, maxDim := 2, numClasses := some 10, nodeTypes := some 1, edgeTypes := some 1,
                           rings := some n }
            test := true
            net := { net := .embedSparse, input := 1, output := 10, maxDim := 2 }
            evaluator := .accuracy
            scheduler := .plateau } := by
  simp only [validate_csl hd, validateCSL, bind_eq_ok, pyAssert_eq_ok, beq_iff_eq, exists_const] at hv
  obtain ⟨hm, ht, -, hsch, hev, -, -, hg⟩ := hv
  have hl : loadDataset d a = openCSL a := by unfold loadDataset; rw [hd]; rfl
  have hn : netOf a.model = .ok .embedSparse := by rw [hm]; rfl
  have he : makeEvaluator k a.evalMetric = .ok .accuracy := by rw [hev]; rfl
  have hs : makeScheduler a.lrScheduler = .ok .plateau := by rw [hsch]; rfl
  have hgn : okNorm a.graphNorm := by rw [hg]; decide
  rw [startExp_complexes (.inl (by rw [ht]; decide)) (by rw [hm]; rfl), startComplexes_iff he hn hs]
  simp only [hl, openCSL_ok, startNet, startEmbed_ok]
  constructor
  · rintro ⟨l, net, ⟨n, f, h1, h2, h3, rfl⟩, h4, -, ⟨⟨-, -, h8, h9⟩, _, _, _, h10, h11, h12, rfl⟩, rfl⟩
    cases h10; cases h11; cases h12
    exact ⟨n, f, h1, h2, h3, h4, h8 rfl, h9 rfl, rfl⟩
  · rintro ⟨n, f, h1, h2, h3, h4, h5, h6, rfl⟩
    exact ⟨_, _, ⟨n, f, h1, h2, h3, rfl⟩, h4, rfl,
      ⟨⟨nofun, fun _ => hgn, fun _ => h5, fun _ => h6⟩, 1, 1, 10, rfl, rfl, rfl, rfl⟩, rfl⟩

/-- Accepted arguments for circular skip links. -/
def cslArgs : Args :=
  { dataset := "CSL", model := "embed_sparse_cin", lrScheduler := "ReduceLROnPlateau", fold := some 3, graphNorm := "ln",
    maxRingSize := some 6, jumpMode := some "cat" }

example : validateArgs cslArgs = .ok () ∧ (startExp ⟨fun _ => 1, fun _ => 1, false⟩ (fun _ => none) cslArgs).isOk = true ∧
    validateArgs { cslArgs with fold := some 5 } = .ok () ∧
    (startExp ⟨fun _ => 1, fun _ => 1, false⟩ (fun _ => none) { cslArgs with fold := some 5 }).isOk = false := by
  decide +kernel

/-- **C86** The ring experiments on cells: accepted arguments start one iff the nonlinearity has a supported name (and
no tuning split is asked for): there are five classes to transfer, and one per other vertex of the ring to look up. No
test split. -/
theorem C86_ring_cells (hd : a.dataset = "RING-TRANSFER" ∨ a.dataset = "RING-LOOKUP")
    (hm : a.model = "ring_sparse_cin") (hv : validateArgs a = .ok ()) (s : Setup) :
    startExp d k a = .ok s ↔ ∃ n classes cls, a.maxRingSize = some n ∧ a.tune = false ∧ okNonlinearity a.nonlinearity ∧
      (a.dataset = "RING-TRANSFER" ∧ classes = 5 ∧ cls = .ringTransfer ∨
        a.dataset = "RING-LOOKUP" ∧ classes + 1 = n ∧ cls = .ringLookup) ∧
      s = { data := some { cls := cls, maxDim := 2, numClasses := some classes, rings := some n, test := false }
            test := false
            net := { net := .ringSparse, input := d.width a.dataset, output := classes, maxDim := 2 }
            evaluator := .accuracy
            scheduler := .none } := by
  simp only [validate_ring hd, validateRing, bind_eq_ok, pyAssert_eq_ok, beq_iff_eq, exists_const, hm] at hv
  obtain ⟨-, ht, -, hsch, hev, -, -, hn3, hg, -⟩ := hv
  have hn : netOf a.model = .ok .ringSparse := by rw [hm]; rfl
  have he : makeEvaluator k a.evalMetric = .ok .accuracy := by rw [hev]; rfl
  have hs : makeScheduler a.lrScheduler = .ok .none := by rw [hsch]; rfl
  have hgn : okNorm a.graphNorm := by
    have : a.graphNorm = "id" := by simpa using hg
    rw [this]; decide
  rw [startExp_complexes (.inl (by rw [ht]; decide)) (by rw [hm]; rfl), startComplexes_iff he hn hs]
  simp only [startNet, startPlain_ok]
  rcases hd with hd | hd
  · have hl : loadDataset d a = openRingTransfer a := by unfold loadDataset; rw [hd]; rfl
    simp only [hl, openRingTransfer_ok]
    constructor
    · rintro ⟨l, net, ⟨n, h1, rfl⟩, h4, -, ⟨⟨-, -, h8, -⟩, -, -, _, h12, rfl⟩, rfl⟩
      cases h12
      exact ⟨n, 5, _, h1, h4, h8 rfl, .inl ⟨hd, rfl, rfl⟩, rfl⟩
    · rintro ⟨n, c, cls, h1, h4, h5, h6 | h6, rfl⟩
      · obtain ⟨-, rfl, rfl⟩ := h6
        exact ⟨_, _, ⟨n, h1, rfl⟩, h4, rfl,
          ⟨⟨nofun, fun _ => hgn, fun _ => h5, nofun⟩, nofun, nofun, 5, rfl, rfl⟩, rfl⟩
      · exact absurd (hd.symm.trans h6.1) (by decide)
  · have hl : loadDataset d a = openRingLookup a := by unfold loadDataset; rw [hd]; rfl
    simp only [hl, openRingLookup_ok]
    constructor
    · rintro ⟨l, net, ⟨n, h1, rfl⟩, h4, -, ⟨⟨-, -, h8, -⟩, -, -, _, h12, rfl⟩, rfl⟩
      cases h12
      have : 3 < n := by simpa [h1] using hn3
      exact ⟨n, n - 1, _, h1, h4, h8 rfl, .inr ⟨hd, by omega, rfl⟩, rfl⟩
    · rintro ⟨n, c, cls, h1, h4, h5, h6 | h6, rfl⟩
      · exact absurd (hd.symm.trans h6.1) (by decide)
      · obtain ⟨-, rfl, rfl⟩ := h6
        exact ⟨_, _, ⟨_, h1, rfl⟩, h4, rfl,
          ⟨⟨nofun, fun _ => hgn, fun _ => h5, nofun⟩, nofun, nofun, _, rfl, rfl⟩, rfl⟩

/-- Accepted arguments for looking up in rings. -/
def ringArgs : Args :=
  { dataset := "RING-LOOKUP", model := "ring_sparse_cin", lrScheduler := "None", graphNorm := "id",
    maxRingSize := some 10 }

example : validateArgs ringArgs = .ok () ∧ validateArgs { ringArgs with dataset := "RING-TRANSFER" } = .ok () ∧
    ((startExp ⟨fun _ => 1, fun _ => 9, false⟩ (fun _ => none) ringArgs).toOption.map fun s => s.net.output) = some 9 := by
  decide +kernel

/-- **C86** The ring experiments on graphs: looking up works as on cells. -/
theorem C86_ring_graphs (hd : a.dataset = "RING-LOOKUP") (hm : a.model = "gin_ring") (hv : validateArgs a = .ok ())
    (s : Setup) :
    startExp d k a = .ok s ↔ ∃ n, a.maxRingSize = some (n + 1) ∧ okNonlinearity a.nonlinearity ∧
      s = { data := none
            test := false
            net := { net := .ringGin, input := d.width a.dataset, output := n, maxDim := 1 }
            evaluator := .accuracy
            scheduler := .none } := by
  simp only [validate_ring (.inr hd), validateRing, bind_eq_ok, pyAssert_eq_ok, beq_iff_eq, exists_const, hm] at hv
  obtain ⟨-, ht, -, hsch, hev, -, -, hn3, -, hg⟩ := hv
  have hgn : okNorm a.graphNorm := by
    have : a.graphNorm = "bn" := by simpa using hg
    rw [this]; decide
  have hn : netOf a.model = .ok .ringGin := by rw [hm]; rfl
  have he : makeEvaluator k a.evalMetric = .ok .accuracy := by rw [hev]; rfl
  have hs : makeScheduler a.lrScheduler = .ok .none := by rw [hsch]; rfl
  have hl : loadGraphs d a = graphsRingLookup a := by unfold loadGraphs; rw [hd]; rfl
  have hz : ∀ g, graphSizes d a g = (d.width a.dataset, g.numClasses) := by
    intro g; unfold graphSizes; rw [hd]; rfl
  rw [startExp_graphs (.inl (by rw [ht]; decide)) (by rw [hm]; rfl), startGraphs_ok]
  simp only [hl, hn, he, hs, graphsRingLookup, startGraphNet, hz, bind_eq_ok, ringSize_ok, pure_eq_ok, lookups_found,
    layerSize_ok, ok_inj]
  constructor
  · rintro ⟨g, _, _, net, _, ⟨n, h1, h2⟩, rfl, rfl, ⟨_, h, _, h5, h6⟩, rfl, rfl⟩
    obtain ⟨-, -, h4, -⟩ := lookups_found.1 (show lookups false true true false a = .ok _ from h)
    subst h6 h2
    cases h5
    have : 3 < n := by simpa [h1] using hn3
    exact ⟨n - 1, by rw [h1]; congr 1; omega, h4 rfl, rfl⟩
  · rintro ⟨n, h1, h2, rfl⟩
    exact ⟨_, _, _, _, _, ⟨n + 1, h1, rfl⟩, rfl, rfl, ⟨(), lookups_found.2 ⟨nofun, fun _ => hgn, fun _ => h2, nofun⟩,
      n, rfl, rfl⟩, rfl, rfl⟩

example : validateArgs { ringArgs with model := "gin_ring", graphNorm := "bn" } = .ok () ∧
    ((startExp ⟨fun _ => 1, fun _ => 9, false⟩ (fun _ => none)
      { ringArgs with model := "gin_ring", graphNorm := "bn" }).toOption.map fun s => s.net.output) = some 9 := by
  decide +kernel

/-- **C86** Transferring features on graphs never starts: the loader is called with a keyword it does not have, although
`validate_args` accepts the arguments. -/
theorem C86_ring_transfer_graphs_never_start (hd : a.dataset = "RING-TRANSFER") (hm : a.model = "gin_ring")
    (hv : validateArgs a = .ok ()) : startExp d k a = .error .type := by
  simp only [validate_ring (.inl hd), validateRing, bind_eq_ok, pyAssert_eq_ok, beq_iff_eq, exists_const] at hv
  have hl : loadGraphs d a = .error .type := by unfold loadGraphs; rw [hd]; rfl
  rw [startExp_graphs (.inl (by rw [hv.2.1]; decide)) (by rw [hm]; rfl), startGraphs, hl]
  rfl

example : validateArgs { ringArgs with dataset := "RING-TRANSFER", model := "gin_ring", graphNorm := "bn" } = .ok () := by
  decide +kernel

/-- **C86** ZINC: accepted arguments start an experiment iff there is a ring size, the model is one of the four
embedding networks and the names its constructor looks up are supported (and no tuning split is asked for). The
networks get 28 types of atoms and predict one number, judged by its mean absolute error. -/
theorem C86_zinc (hd : a.dataset = "ZINC" ∨ a.dataset = "ZINC-FULL") (hv : validateArgs a = .ok ()) (s : Setup) :
    startExp d k a = .ok s ↔ ∃ n net maxDim, a.maxRingSize = some n ∧ a.tune = false ∧ okNonlinearity a.nonlinearity ∧
      (a.model = "embed_sparse_cin" ∧ net = .embedSparse ∧ maxDim = 2 ∧ okNorm a.graphNorm ∧ okJump a.jumpMode ∨
       a.model = "embed_cin++" ∧ net = .embedPP ∧ maxDim = 2 ∧ okNorm a.graphNorm ∧ okJump a.jumpMode ∨
       a.model = "embed_sparse_cin_no_rings" ∧ net = .noRings ∧ maxDim = 1 ∧ okNorm a.graphNorm ∨
       a.model = "embed_gin" ∧ net = .embedGIN ∧ maxDim = 1 ∧ okReadout a.readout) ∧
      s = { data := some { cls := .zinc, maxDim := 2, numClasses := some 1, nodeTypes := some 28, edgeTypes := some 4,
                           rings := some n, downAdj := a.includeDownAdj }
            test := true
            net := { net := net, input := 28, output := 1, maxDim := maxDim }
            evaluator := .mae
            scheduler := .plateau } := by
  have hz : beginsWith "ZINC" a.dataset = true := by rcases hd with h | h <;> rw [h] <;> rfl
  simp only [validate_zinc hz, validateZinc, bind_eq_ok, pyAssert_eq_ok, beq_iff_eq, exists_const] at hv
  obtain ⟨hm, -, ht, -, hev, hsch, -⟩ := hv
  have hng : beginsWith "gin" a.model = false := by
    by_contra hz
    simp only [beginsWith, List.isPrefixOf_iff_prefix, Bool.not_eq_false] at hm hz
    obtain ⟨u, hu⟩ := hm
    obtain ⟨v, hv⟩ := hz
    rw [← hu] at hv
    cases hv
  have he : makeEvaluator k a.evalMetric = .ok .mae := by rw [hev]; rfl
  have hs : makeScheduler a.lrScheduler = .ok .plateau := by rw [hsch]; rfl
  have hl : loadDataset d a = openZinc a := by
    unfold loadDataset; rcases hd with hd | hd <;> rw [hd] <;> rfl
  rw [startExp_complexes (.inl (by rw [ht]; decide)) hng]
  constructor
  · rw [startComplexes_ok]
    simp only [hl, he, hs, openZinc_ok, checkSplits_ok, ok_inj]
    rintro ⟨l, _, kind, net, _, ⟨n, h1, rfl⟩, ⟨h2, -⟩, rfl, h3, h4, rfl, rfl⟩
    have hk : a.model = "embed_sparse_cin" ∧ kind = .embedSparse ∨ a.model = "embed_cin++" ∧ kind = .embedPP ∨
        a.model = "embed_sparse_cin_no_rings" ∧ kind = .noRings ∨ a.model = "embed_gin" ∧ kind = .embedGIN := by
      have hmem : (a.model, kind) ∈ netTable := by
        unfold netOf at h3
        split at h3
        · next x hx => cases h3; exact mem_of_lookup hx
        · cases h3
      simp only [netTable, List.mem_cons, Prod.mk.injEq, List.not_mem_nil, or_false] at hmem
      have hb : ∀ t, beginsWith "embed" t = false → a.model ≠ t := by rintro t ht rfl; rw [ht] at hm; cases hm
      rcases hmem with h | h | h | h | h | h | h | h | h | h | h | h | h | h | h | h | h <;>
        first
        | exact absurd h.1 (hb _ rfl)
        | (obtain ⟨h, rfl⟩ := h; simp [h])
    rcases hk with ⟨hk, rfl⟩ | ⟨hk, rfl⟩ | ⟨hk, rfl⟩ | ⟨hk, rfl⟩ <;>
    · simp only [startNet, startEmbed_ok] at h4
      obtain ⟨⟨h5, h6, h7, h8⟩, _, _, _, h10, h11, h12, rfl⟩ := h4
      cases h10; cases h11; cases h12
      refine ⟨n, _, _, h1, h2, h7 rfl, ?_, rfl⟩
      simp_all
  · rintro ⟨n, net, m, h1, h2, h3, h4, rfl⟩
    have hfound : ∃ r b j m', netOf a.model = .ok net ∧
        (∀ l : Loaded, l.maxDim = 2 → startNet d a l net = startEmbed a l net r b j m') ∧ m' = m ∧
        Found r b true j a := by
      rcases h4 with ⟨h, rfl, rfl, h5, h6⟩ | ⟨h, rfl, rfl, h5, h6⟩ | ⟨h, rfl, rfl, h5⟩ | ⟨h, rfl, rfl, h5⟩
      · exact ⟨false, true, true, 2, by rw [h]; rfl, fun l hl => by rw [← hl]; rfl, rfl, nofun, fun _ => h5, fun _ => h3, fun _ => h6⟩
      · exact ⟨false, true, true, 2, by rw [h]; rfl, fun l hl => by rw [← hl]; rfl, rfl, nofun, fun _ => h5, fun _ => h3, fun _ => h6⟩
      · exact ⟨false, true, false, 1, by rw [h]; rfl, fun l hl => rfl, rfl, nofun, fun _ => h5, fun _ => h3, nofun⟩
      · exact ⟨true, false, false, 1, by rw [h]; rfl, fun l hl => rfl, rfl, fun _ => h5, nofun, fun _ => h3, nofun⟩
    obtain ⟨r, b, j, m', hn, hst, rfl, hf⟩ := hfound
    rw [startComplexes_iff he hn hs]
    refine ⟨_, _, hl.trans (openZinc_ok.2 ⟨n, h1, rfl⟩), h2, rfl, ?_, rfl⟩
    rw [hst _ rfl, startEmbed_ok]
    exact ⟨hf, 28, 4, 1, rfl, rfl, rfl, rfl⟩

/-- Accepted arguments for ZINC. -/
def zincArgs : Args :=
  { dataset := "ZINC", model := "embed_cin++", taskType := "regression", minimize := true, evalMetric := "mae",
    lrScheduler := "ReduceLROnPlateau", maxRingSize := some 18, includeDownAdj := true }

example : validateArgs zincArgs = .ok () ∧
    (startExp ⟨fun _ => 1, fun _ => 9, false⟩ (fun _ => none) zincArgs).isOk = true ∧
    validateArgs { zincArgs with includeDownAdj := false } = .error .assertion ∧
    validateArgs { zincArgs with model := "embed_gnn" } = .ok () ∧
    (startExp ⟨fun _ => 1, fun _ => 9, false⟩ (fun _ => none) { zincArgs with model := "embed_gnn" }).isOk = false := by
  decide +kernel

/-- **C86** The OGB molecules, under their official names: accepted arguments start an experiment iff there is a ring
size, the evaluator of OGB knows the dataset, and normalisation, nonlinearity and scheduler have supported names (and no
tuning split is asked for). The network has one output per task that is stored with the dataset. -/
theorem C86_ogb {n : String × String} (ho : n ∈ ogbNames) (hd : a.dataset = n.1) (hv : validateArgs a = .ok ())
    (s : Setup) :
    startExp d k a = .ok s ↔ ∃ r net key sch, a.maxRingSize = some r ∧ a.tune = false ∧ k n.2 = some key ∧
      okNorm a.graphNorm ∧ okNonlinearity a.nonlinearity ∧
      (a.model, net) ∈ [("ogb_embed_sparse_cin", Net.ogbSparse), ("ogb_embed_cin++", .ogbPP)] ∧
      (a.lrScheduler, sch) ∈ [("ReduceLROnPlateau", Scheduler.plateau), ("StepLR", .stepLR), ("None", .none)] ∧
      s = { data := some { cls := .ogb, maxDim := 2, numClasses := none, numTasks := some (d.tasks n.2),
                           rings := some r, downAdj := a.includeDownAdj }
            test := true
            net := { net := net, input := 9, output := d.tasks n.2, maxDim := 2 }
            evaluator := .ogb key
            scheduler := sch } := by
  simp only [validate_ogb ho hd, validateOgb, bind_eq_ok, pyAssert_eq_ok, beq_iff_eq, exists_const, Bool.or_eq_true] at hv
  obtain ⟨hm, -, hev, hj, ht⟩ := hv
  have htask : a.taskType ≠ "isomorphism" := by
    split at ht
    · simp only [bind_eq_ok, pyAssert_eq_ok, beq_iff_eq, exists_const] at ht; rw [ht.1]; decide
    · simp only [bind_eq_ok, pyAssert_eq_ok, beq_iff_eq, exists_const] at ht; rw [ht.1]; decide
  have hj' : okJump a.jumpMode := by
    rw [Option.isNone_iff_eq_none.1 hj]; decide
  have hng : beginsWith "gin" a.model = false := by rcases hm with h | h <;> rw [h] <;> rfl
  rw [startExp_complexes (.inl htask) hng, startComplexes_ok, hev]
  simp only [load_ogb ho hd, evaluator_ogb ho, scheduler_ok, openOGB_ok, checkSplits_ok]
  constructor
  · rintro ⟨l, e, kind, net, sch, ⟨r, h1, rfl⟩, ⟨h2, -⟩, ⟨key, h3, rfl⟩, h4, h5, h6, rfl⟩
    rcases hm with h | h <;>
    · rw [h] at h4
      cases h4
      simp only [startNet, startOGB_ok] at h5
      obtain ⟨⟨-, h7, h8, -⟩, _, h9, rfl⟩ := h5
      cases h9
      refine ⟨r, _, key, sch, h1, h2, h3, h7 rfl, h8 rfl, ?_, h6, rfl⟩
      simp [h]
  · rintro ⟨r, net, key, sch, h1, h2, h3, h4, h5, h6, h7, rfl⟩
    have hn : netOf a.model = .ok net ∧ ∀ l, startNet d a l net = startOGB a l net := by
      simp only [List.mem_cons, Prod.mk.injEq, List.not_mem_nil, or_false] at h6
      rcases h6 with ⟨h, rfl⟩ | ⟨h, rfl⟩ <;> exact ⟨by rw [h]; rfl, fun _ => rfl⟩
    refine ⟨_, _, net, _, sch, ⟨r, h1, rfl⟩, ⟨h2, rfl⟩, ⟨key, h3, rfl⟩, hn.1, ?_, h7, rfl⟩
    rw [hn.2, startOGB_ok]
    exact ⟨⟨nofun, fun _ => h4, fun _ => h5, fun _ => hj'⟩, _, rfl, rfl⟩

/-- Accepted arguments for an OGB dataset. -/
def ogbArgs : Args :=
  { dataset := "MOLESOL", model := "ogb_embed_sparse_cin", taskType := "mse_regression", minimize := true,
    evalMetric := "ogbg-molesol", maxRingSize := some 6 }

example : validateArgs ogbArgs = .ok () ∧
    ((startExp ⟨fun _ => 1, fun _ => 9, false⟩ (fun _ => some "rmse") ogbArgs).toOption.map fun s => s.evaluator) =
      some (.ogb "rmse") ∧
    validateArgs { ogbArgs with minimize := false } = .error .assertion ∧
    validateArgs { ogbArgs with evalMetric := "ogbg-mollipo" } = .error .assertion := by
  decide +kernel

/-- **C86** Strongly regular graphs: accepted arguments start an experiment iff the ring size, if any, is above 3 and
the dimension is 2 then, the scheduler has a supported name and for `SparseCIN` the normalisation, too (and no tuning
split is asked for). The network has sixteen outputs, and the test split is there. -/
theorem C86_sr (hd : beginsWith "sr" a.dataset = true) (hv : validateArgs a = .ok ()) (s : Setup) :
    startExp d k a = .ok s ↔ ∃ net sch, (∀ n, a.maxRingSize = some n → 3 < n ∧ a.maxDim = 2) ∧ a.tune = false ∧
      (a.model = "sparse_cin" ∧ net = .sparse ∧ okNorm a.graphNorm ∨ a.model = "mp_agnostic" ∧ net = .agnostic) ∧
      (a.lrScheduler, sch) ∈ [("ReduceLROnPlateau", Scheduler.plateau), ("StepLR", .stepLR), ("None", .none)] ∧
      s = { data := some { cls := .sr, maxDim := a.maxDim, numClasses := some 16, rings := a.maxRingSize }
            test := true
            net := { net := net, input := d.width a.dataset, output := 16, maxDim := a.maxDim }
            evaluator := .isomorphism
            scheduler := sch } := by
  simp only [validate_sr hd, validateSR, bind_eq_ok, pyAssert_eq_ok, beq_iff_eq, exists_const, Bool.or_eq_true] at hv
  obtain ⟨hm, hev, -, hj, -, -, hnl, hr, -⟩ := hv
  have hj' : okJump a.jumpMode := by rw [Option.isNone_iff_eq_none.1 hj]; decide
  have hr' : okReadout a.readout := by rw [hr]; decide
  have hn' : okNonlinearity a.nonlinearity := by rw [hnl]; decide
  have hng : beginsWith "gin" a.model = false := by rcases hm with h | h <;> rw [h] <;> rfl
  have hl : loadDataset d a = openSR a := by unfold loadDataset; rw [if_pos hd]
  have he : makeEvaluator k a.evalMetric = .ok .isomorphism := by rw [hev]; rfl
  rw [startExp_complexes (.inr hd) hng, startComplexes_ok]
  simp only [hl, he, scheduler_ok, openSR_ok, checkSplits_ok, ok_inj]
  constructor
  · rintro ⟨l, e, kind, net, sch, ⟨h1, rfl⟩, ⟨h2, -⟩, rfl, h4, h5, h6, rfl⟩
    rcases hm with h | h <;>
    · rw [h] at h4
      cases h4
      simp only [startNet, startPlain_ok] at h5
      obtain ⟨⟨-, h7, -, -⟩, -, -, _, h9, rfl⟩ := h5
      cases h9
      refine ⟨_, sch, h1, h2, ?_, h6, rfl⟩
      first
      | exact .inl ⟨h, rfl, h7 rfl⟩
      | exact .inr ⟨h, rfl⟩
  · rintro ⟨net, sch, h1, h2, h3, h4, rfl⟩
    rcases h3 with ⟨h, rfl, h5⟩ | ⟨h, rfl⟩
    · refine ⟨_, _, .sparse, _, sch, ⟨h1, rfl⟩, ⟨h2, rfl⟩, rfl, by rw [h]; rfl, ?_, h4, rfl⟩
      simp only [startNet, startPlain_ok]
      exact ⟨⟨fun _ => hr', fun _ => h5, fun _ => hn', fun _ => hj'⟩, nofun, nofun, _, rfl, rfl⟩
    · refine ⟨_, _, .agnostic, _, sch, ⟨h1, rfl⟩, ⟨h2, rfl⟩, rfl, by rw [h]; rfl, ?_, h4, rfl⟩
      simp only [startNet, startPlain_ok]
      exact ⟨⟨nofun, nofun, fun _ => hn', nofun⟩, nofun, nofun, _, rfl, rfl⟩

/-- Accepted arguments for strongly regular graphs. -/
def srArgs : Args :=
  { dataset := "sr16622", taskType := "isomorphism", evalMetric := "isomorphism", untrained := true,
    nonlinearity := "elu", maxRingSize := some 6 }

example : validateArgs srArgs = .ok () ∧
    (startExp ⟨fun _ => 1, fun _ => 1, false⟩ (fun _ => none) srArgs).isOk = true ∧
    (startExp ⟨fun _ => 1, fun _ => 1, false⟩ (fun _ => none) { srArgs with maxDim := 3 }).isOk = false ∧
    (startExp ⟨fun _ => 1, fun _ => 1, false⟩ (fun _ => none)
      { srArgs with maxDim := 3, maxRingSize := none }).isOk = true := by
  decide +kernel

/-- **C86** Trajectories: accepted arguments start an experiment iff readout, nonlinearity and scheduler have supported
names (and no tuning split is asked for). The networks get one feature per edge and have two outputs; the lower
adjacencies are there, a test split is not. -/
theorem C86_flow (hd : a.dataset = "FLOW" ∨ a.dataset = "OCEAN") (hv : validateArgs a = .ok ()) (s : Setup) :
    startExp d k a = .ok s ↔ ∃ net sch cls, a.tune = false ∧ okReadout a.readout ∧ okNonlinearity a.nonlinearity ∧
      (a.model, net) ∈ [("edge_orient", Net.edgeOrient), ("edge_mpnn", .edgeMPNN)] ∧
      (a.dataset, cls) ∈ [("FLOW", DataClass.flow), ("OCEAN", .ocean)] ∧
      (a.lrScheduler, sch) ∈ [("ReduceLROnPlateau", Scheduler.plateau), ("StepLR", .stepLR), ("None", .none)] ∧
      s = { data := some { cls := cls, maxDim := 1, numClasses := some 2, downAdj := true, test := false }
            test := false
            net := { net := net, input := 1, output := 2, maxDim := 1 }
            evaluator := .accuracy
            scheduler := sch } := by
  simp only [validate_flow hd, validateFlow, bind_eq_ok, pyAssert_eq_ok, beq_iff_eq, exists_const, Bool.or_eq_true] at hv
  obtain ⟨hm, hev, ht, -⟩ := hv
  have hng : beginsWith "gin" a.model = false := by rcases hm with h | h <;> rw [h] <;> rfl
  have hl : ∀ l, loadDataset d a = .ok l ↔ ∃ cls, (a.dataset, cls) ∈ [("FLOW", DataClass.flow), ("OCEAN", .ocean)] ∧
      l = { cls := cls, maxDim := 1, numClasses := some 2, downAdj := true, test := false } := by
    intro l
    have hx : ∃ cls, (a.dataset, cls) ∈ [("FLOW", DataClass.flow), ("OCEAN", .ocean)] ∧ loadDataset d a =
        .ok { cls := cls, maxDim := 1, numClasses := some 2, downAdj := true, test := false } := by
      unfold loadDataset
      rcases hd with h | h <;> rw [h]
      · exact ⟨.flow, by decide, rfl⟩
      · exact ⟨.ocean, by decide, rfl⟩
    obtain ⟨cls, h1, h2⟩ := hx
    rw [h2]
    constructor
    · intro h; exact ⟨cls, h1, (ok_inj.1 h).symm⟩
    · rintro ⟨cls', h3, rfl⟩
      have : cls' = cls := by
        simp only [List.mem_cons, Prod.mk.injEq, List.not_mem_nil, or_false] at h1 h3
        rcases hd with h | h <;> simp_all
      rw [this]
  have he : makeEvaluator k a.evalMetric = .ok .accuracy := by rw [hev]; rfl
  rw [startExp_complexes (.inl (by rw [ht]; decide)) hng, startComplexes_ok]
  simp only [hl, he, scheduler_ok, checkSplits_ok, ok_inj]
  constructor
  · rintro ⟨l, e, kind, net, sch, ⟨cls, h1, rfl⟩, ⟨h2, -⟩, rfl, h4, h5, h6, rfl⟩
    rcases hm with h | h <;>
    · rw [h] at h4
      cases h4
      simp only [startNet, startEdge_ok] at h5
      obtain ⟨⟨h7, -, h8, -⟩, _, h9, rfl⟩ := h5
      cases h9
      refine ⟨_, sch, cls, h2, h7 rfl, h8 rfl, ?_, h1, h6, rfl⟩
      simp [h]
  · rintro ⟨net, sch, cls, h1, h2, h3, h4, h5, h6, rfl⟩
    have hn : netOf a.model = .ok net ∧ ∀ l, startNet d a l net = startEdge a l net := by
      simp only [List.mem_cons, Prod.mk.injEq, List.not_mem_nil, or_false] at h4
      rcases h4 with ⟨h, rfl⟩ | ⟨h, rfl⟩ <;> exact ⟨by rw [h]; rfl, fun _ => rfl⟩
    refine ⟨_, _, net, _, sch, ⟨cls, h5, rfl⟩, ⟨h1, rfl⟩, rfl, hn.1, ?_, h6, rfl⟩
    rw [hn.2, startEdge_ok]
    exact ⟨⟨fun _ => h2, nofun, fun _ => h3, nofun⟩, _, rfl, rfl⟩

/-- Accepted arguments for trajectories. -/
def flowArgs : Args := { dataset := "OCEAN", model := "edge_mpnn", readout := "mean" }

example : validateArgs flowArgs = .ok () ∧
    (startExp ⟨fun _ => 1, fun _ => 1, false⟩ (fun _ => none) flowArgs).isOk = true ∧
    (startExp ⟨fun _ => 1, fun _ => 1, false⟩ (fun _ => none) { flowArgs with readout := "max" }).isOk = false := by
  decide +kernel

/-- **C86** The TUDatasets, for which `validate_args` has no rules: `CIN0`, `SparseCIN` and `CINpp` judged by accuracy start
iff the ring size, if any, is above 3 and the dimension is 2 then, there is a fold, and the names the constructor looks
up and the scheduler are supported (and no tuning split is asked for). -/
theorem C86_tu {name : String} {classes : Nat} {passed : Bool} (hmem : (name, classes, passed) ∈ tuDatasets)
    (hd : a.dataset = name) {net : Net}
    (hm : (a.model, net) ∈ [("cin", Net.cin), ("sparse_cin", .sparse), ("cin++", .pp)])
    (ht : a.taskType ≠ "isomorphism") (hev : a.evalMetric = "accuracy") (s : Setup) :
    startExp d k a = .ok s ↔ ∃ sch, (∀ n, a.maxRingSize = some n → 3 < n ∧ a.maxDim = 2) ∧ a.fold ≠ none ∧
      a.tune = false ∧ okReadout a.readout ∧ (net ≠ .cin → okNorm a.graphNorm) ∧ okNonlinearity a.nonlinearity ∧
      okJump a.jumpMode ∧
      (a.lrScheduler, sch) ∈ [("ReduceLROnPlateau", Scheduler.plateau), ("StepLR", .stepLR), ("None", .none)] ∧
      s = { data := some { cls := .tu, maxDim := a.maxDim, numClasses := some classes, rings := a.maxRingSize,
                           downAdj := passed && a.includeDownAdj, test := false }
            test := false
            net := { net := net, input := d.width name, output := classes, maxDim := a.maxDim }
            evaluator := .accuracy
            scheduler := sch } := by
  have hl := load_tu (d := d) hmem hd
  have he : makeEvaluator k a.evalMetric = .ok .accuracy := by rw [hev]; rfl
  have hn : netOf a.model = .ok net ∧ beginsWith "gin" a.model = false ∧ ∀ l, startNet d a l net =
      startPlain d a l net true (decide (net ≠ .cin)) true true := by
    simp only [List.mem_cons, Prod.mk.injEq, List.not_mem_nil, or_false] at hm
    rcases hm with ⟨h, rfl⟩ | ⟨h, rfl⟩ | ⟨h, rfl⟩ <;> exact ⟨by rw [h]; rfl, by rw [h]; rfl, fun _ => rfl⟩
  rw [startExp_complexes (.inl ht) hn.2.1, startComplexes_ok]
  simp only [hl, he, hn.1, scheduler_ok, openTU_ok, checkSplits_ok, ok_inj]
  constructor
  · rintro ⟨l, e, kind, st, sch, ⟨h1, ⟨f, h1'⟩, rfl⟩, ⟨h2, -⟩, rfl, rfl, h5, h6, rfl⟩
    rw [hn.2.2, startPlain_ok] at h5
    obtain ⟨⟨h7, h8, h9, h10⟩, -, -, _, h11, rfl⟩ := h5
    cases h11
    exact ⟨sch, h1, by rw [h1']; nofun, h2, h7 rfl, fun h => h8 (by simpa using h), h9 rfl, h10 rfl, h6, by rw [hd]⟩
  · rintro ⟨sch, h1, h2, h3, h4, h5, h6, h7, h8, rfl⟩
    refine ⟨_, _, net, _, sch, ⟨h1, Option.ne_none_iff_exists'.1 h2, rfl⟩, ⟨h3, rfl⟩, rfl, rfl, ?_, h8, rfl⟩
    rw [hn.2.2, startPlain_ok, hd]
    exact ⟨⟨fun _ => h4, fun h => h5 (by simpa using h), fun _ => h6, fun _ => h7⟩, nofun, nofun, _, rfl, rfl⟩

/-- Arguments for a TUDataset. -/
def tuArgs : Args := { dataset := "IMDBMULTI", model := "cin++", fold := some 0, includeDownAdj := true }

example : ((startExp ⟨fun _ => 1, fun _ => 1, false⟩ (fun _ => none) tuArgs).toOption.map fun s =>
      (s.net.output, s.data.map Loaded.downAdj)) = some (3, some false) ∧
    (startExp ⟨fun _ => 1, fun _ => 1, false⟩ (fun _ => none) { tuArgs with fold := none }).isOk = false := by
  decide +kernel

/-! ### What the accepted arguments have in common -/

/-- **C86** Where `validate_args` has rules, the accepted task can be trained; strongly regular graphs are not trained. -/
theorem C86_tasks (hv : validateArgs a = .ok ()) :
    (Ruled a.dataset → taskOf a.taskType ≠ .isomorphism ∧ taskOf a.taskType ≠ .other) ∧
    (beginsWith "sr" a.dataset = true → taskOf a.taskType = .isomorphism ∧ a.untrained = true) := by
  constructor
  · intro hr
    have h : a.taskType ∈ ["classification", "bin_classification", "regression", "mse_regression"] := by
      rcases hr with hd | hd | hd | hd | hd | hd | hd
      · simp only [validate_csl hd, validateCSL, bind_eq_ok, pyAssert_eq_ok, beq_iff_eq, exists_const] at hv
        simp [hv.2.1]
      · simp only [validate_ring (.inl hd), validateRing, bind_eq_ok, pyAssert_eq_ok, beq_iff_eq, exists_const] at hv
        simp [hv.2.1]
      · simp only [validate_ring (.inr hd), validateRing, bind_eq_ok, pyAssert_eq_ok, beq_iff_eq, exists_const] at hv
        simp [hv.2.1]
      · simp only [validate_zinc hd, validateZinc, bind_eq_ok, pyAssert_eq_ok, beq_iff_eq, exists_const] at hv
        simp [hv.2.2.1]
      · obtain ⟨n, hn, hd⟩ := List.mem_map.1 hd
        simp only [validate_ogb hn hd.symm, validateOgb, bind_eq_ok, pyAssert_eq_ok, beq_iff_eq, exists_const] at hv
        have := hv.2.2.2.2
        split at this <;>
        · simp only [bind_eq_ok, pyAssert_eq_ok, beq_iff_eq, exists_const] at this
          simp [this.1]
      · simp only [validate_flow (.inl hd), validateFlow, bind_eq_ok, pyAssert_eq_ok, beq_iff_eq, exists_const] at hv
        simp [hv.2.2.1]
      · simp only [validate_flow (.inr hd), validateFlow, bind_eq_ok, pyAssert_eq_ok, beq_iff_eq, exists_const] at hv
        simp [hv.2.2.1]
    simp only [List.mem_cons, List.not_mem_nil, or_false] at h
    rcases h with h | h | h | h <;> rw [h] <;> decide
  · intro hd
    simp only [validate_sr hd, validateSR, bind_eq_ok, pyAssert_eq_ok, beq_iff_eq, exists_const] at hv
    refine ⟨by rw [hv.2.2.1]; decide, hv.2.2.2.2.2.1⟩

example : Ruled zincArgs.dataset ∧ taskOf zincArgs.taskType = .regression ∧ beginsWith "sr" srArgs.dataset = true ∧
    taskOf tuArgs.taskType = .classification :=
  ⟨.inr (.inr (.inr (.inl rfl))), by decide, rfl, by decide⟩

/-- **C86** Where `validate_args` has rules, the metric is minimised iff it is an error: the mean absolute error, or the
metric of an OGB dataset of regression. -/
theorem C86_objective (hr : Ruled a.dataset) (hv : validateArgs a = .ok ()) :
    a.minimize = true ↔ a.evalMetric = "mae" ∨ a.dataset ∈ ogbRegression := by
  rcases hr with hd | hd | hd | hd | hd | hd | hd
  · simp only [validate_csl hd, validateCSL, bind_eq_ok, pyAssert_eq_ok, beq_iff_eq, exists_const] at hv
    obtain ⟨-, -, h1, -, h2, -⟩ := hv
    rw [hd, h2]; simp [ogbRegression]; simpa using h1
  · simp only [validate_ring (.inl hd), validateRing, bind_eq_ok, pyAssert_eq_ok, beq_iff_eq, exists_const] at hv
    obtain ⟨-, -, h1, -, h2, -⟩ := hv
    rw [hd, h2]; simp [ogbRegression]; simpa using h1
  · simp only [validate_ring (.inr hd), validateRing, bind_eq_ok, pyAssert_eq_ok, beq_iff_eq, exists_const] at hv
    obtain ⟨-, -, h1, -, h2, -⟩ := hv
    rw [hd, h2]; simp [ogbRegression]; simpa using h1
  · simp only [validate_zinc hd, validateZinc, bind_eq_ok, pyAssert_eq_ok, beq_iff_eq, exists_const] at hv
    obtain ⟨-, -, -, h1, h2, -⟩ := hv
    simp [h1, h2]
  · obtain ⟨n, hn, hd⟩ := List.mem_map.1 hd
    simp only [validate_ogb hn hd.symm, validateOgb, bind_eq_ok, pyAssert_eq_ok, beq_iff_eq, exists_const] at hv
    obtain ⟨-, -, h1, -, h2⟩ := hv
    have h3 : a.evalMetric ≠ "mae" := by
      rw [h1]
      exact ogb_cases hn (fun n => n.2 ≠ "mae") (by decide)
    have h4 : a.dataset ∈ ogbRegression ↔ a.dataset = "MOLESOL" ∨ a.dataset = "MOLFREESOLV" ∨ a.dataset = "MOLLIPO" := by
      simp [ogbRegression]
    rw [h4]
    split at h2
    · next h =>
      simp only [bind_eq_ok, pyAssert_eq_ok, beq_iff_eq, exists_const] at h2
      simp only [h2.2, true_iff]; exact .inr h
    · next h =>
      simp only [bind_eq_ok, pyAssert_eq_ok, beq_iff_eq, exists_const] at h2
      have : a.minimize = false := by simpa using h2.2
      simp only [this, h3, h, or_self, iff_false]; simp
  · simp only [validate_flow (.inl hd), validateFlow, bind_eq_ok, pyAssert_eq_ok, beq_iff_eq, exists_const] at hv
    obtain ⟨-, h2, -, -, -, -, -, h1⟩ := hv
    rw [hd, h2]; simp [ogbRegression]; simpa using h1
  · simp only [validate_flow (.inr hd), validateFlow, bind_eq_ok, pyAssert_eq_ok, beq_iff_eq, exists_const] at hv
    obtain ⟨-, h2, -, -, -, -, -, h1⟩ := hv
    rw [hd, h2]; simp [ogbRegression]; simpa using h1

example : Ruled ogbArgs.dataset ∧ validateArgs ogbArgs = .ok () ∧ ogbArgs.minimize = true ∧
    ogbArgs.dataset ∈ ogbRegression ∧ validateArgs cslArgs = .ok () ∧ cslArgs.minimize = false :=
  ⟨.inr (.inr (.inr (.inr (.inl (by decide))))), by decide +kernel, rfl, by decide, by decide +kernel, rfl⟩

/-- **C86** With accepted arguments for a dataset with rules, the networks that send messages along lower adjacencies
(`EmbedCINpp`, `OGBEmbedCINpp`, `EdgeOrient`, `EdgeMPNN`) get datasets in which these are computed. -/
theorem C86_lower_adjacencies (hr : Ruled a.dataset) (hv : validateArgs a = .ok ()) {s : Setup}
    (hs : startExp d k a = .ok s) (hn : s.net.net ∈ [Net.embedPP, .ogbPP, .edgeOrient, .edgeMPNN, .pp, .cin]) :
    ∃ l, s.data = some l ∧ l.downAdj = true := by
  have hv0 := hv
  rcases hr with hd | hd | hd | hd | hd | hd | hd
  · obtain ⟨_, _, _, _, _, _, _, _, rfl⟩ := (C86_csl hd hv s).1 hs
    simp at hn
  · simp only [validate_ring (.inl hd), validateRing, bind_eq_ok, pyAssert_eq_ok, beq_iff_eq, exists_const,
      Bool.or_eq_true] at hv
    rcases hv.1 with hm | hm
    · obtain ⟨_, _, _, _, _, _, _, rfl⟩ := (C86_ring_cells (.inl hd) hm hv0 s).1 hs
      simp at hn
    · rw [C86_ring_transfer_graphs_never_start hd hm hv0] at hs; cases hs
  · simp only [validate_ring (.inr hd), validateRing, bind_eq_ok, pyAssert_eq_ok, beq_iff_eq, exists_const,
      Bool.or_eq_true] at hv
    rcases hv.1 with hm | hm
    · obtain ⟨_, _, _, _, _, _, _, rfl⟩ := (C86_ring_cells (.inr hd) hm hv0 s).1 hs
      simp at hn
    · obtain ⟨_, _, _, rfl⟩ := (C86_ring_graphs hd hm hv0 s).1 hs
      simp at hn
  · have hd' : a.dataset = "ZINC" ∨ a.dataset = "ZINC-FULL" := by
      simp only [validate_zinc hd, validateZinc, bind_eq_ok, pyAssert_eq_ok, beq_iff_eq, exists_const] at hv
      have hng : beginsWith "gin" a.model = false := by
        by_contra hz
        have hm := hv.1
        simp only [beginsWith, List.isPrefixOf_iff_prefix, Bool.not_eq_false] at hm hz
        obtain ⟨u, hu⟩ := hm
        obtain ⟨v, hv⟩ := hz
        rw [← hu] at hv
        cases hv
      rw [startExp_complexes (.inl (by rw [hv.2.2.1]; decide)) hng, startComplexes_ok] at hs
      obtain ⟨l, _, _, _, _, h1, -⟩ := hs
      have h2 := loadDataset_names h1
      have hb : ∀ t, beginsWith "ZINC" t = false → a.dataset ≠ t := by rintro t ht rfl; rw [ht] at hd; cases hd
      rcases h2 with h2 | h2
      · have hz : beginsWith "sr" a.dataset = false := by
          by_contra hz
          simp only [beginsWith, List.isPrefixOf_iff_prefix, Bool.not_eq_false] at hd hz
          obtain ⟨u, hu⟩ := hd
          obtain ⟨v, hv⟩ := hz
          rw [← hu] at hv
          cases hv
        rw [h2] at hz; cases hz
      · simp only [datasetNames, List.mem_cons, List.not_mem_nil, or_false] at h2
        by_contra hc
        rw [not_or] at hc
        rcases h2 with h | h | h | h | h | h | h | h | h | h | h | h | h | h | h | h | h | h | h | h | h | h | h | h |
          h | h | h | h | h | h | h | h | h <;>
        first
        | exact hb _ rfl h
        | exact hc.1 h
        | exact hc.2 h
    obtain ⟨n, net, m, h1, h2, h3, h4, rfl⟩ := (C86_zinc hd' hv s).1 hs
    refine ⟨_, rfl, ?_⟩
    simp only [validate_zinc hd, validateZinc, bind_eq_ok, pyAssert_eq_ok, beq_iff_eq, exists_const] at hv
    have h5 := hv.2.1
    rcases h4 with ⟨h, rfl, -⟩ | ⟨h, rfl, -⟩ | ⟨h, rfl, -⟩ | ⟨h, rfl, -⟩
    · simp at hn
    · simpa [h] using h5
    · simp at hn
    · simp at hn
  · obtain ⟨n, ho, hd⟩ := List.mem_map.1 hd
    obtain ⟨r, net, key, sch, h1, h2, h3, h4, h5, h6, h7, rfl⟩ := (C86_ogb ho hd.symm hv s).1 hs
    refine ⟨_, rfl, ?_⟩
    simp only [validate_ogb ho hd.symm, validateOgb, bind_eq_ok, pyAssert_eq_ok, beq_iff_eq, exists_const] at hv
    have h8 := hv.2.1
    simp only [List.mem_cons, Prod.mk.injEq, List.not_mem_nil, or_false] at h6
    rcases h6 with ⟨h, rfl⟩ | ⟨h, rfl⟩
    · simp at hn
    · simpa [h] using h8
  · obtain ⟨_, _, _, _, _, _, _, _, _, rfl⟩ := (C86_flow (.inl hd) hv s).1 hs
    exact ⟨_, rfl, rfl⟩
  · obtain ⟨_, _, _, _, _, _, _, _, _, rfl⟩ := (C86_flow (.inr hd) hv s).1 hs
    exact ⟨_, rfl, rfl⟩

example : ∃ s, startExp ⟨fun _ => 1, fun _ => 9, false⟩ (fun _ => none) zincArgs = .ok s ∧ s.net.net = .embedPP :=
  ⟨_, (C86_zinc (.inl rfl) (by decide +kernel) _).2 ⟨18, .embedPP, 2, rfl, rfl, by decide, .inr (.inl
    ⟨rfl, rfl, rfl, by decide, by decide⟩), rfl⟩, rfl⟩

/-- **C86** Without rules this is not so: `CINpp` and `CIN0` start on four of the TUDatasets without lower adjacencies
although `--include_down_adj` is given. -/
theorem C86_lower_adjacencies_not_passed {name : String} {classes : Nat} (hmem : (name, classes, false) ∈ tuDatasets)
    (hd : a.dataset = name) {net : Net}
    (hm : (a.model, net) ∈ [("cin", Net.cin), ("sparse_cin", .sparse), ("cin++", .pp)])
    (ht : a.taskType ≠ "isomorphism") (hev : a.evalMetric = "accuracy") {s : Setup} (hs : startExp d k a = .ok s) :
    ∃ l, s.data = some l ∧ l.downAdj = false := by
  obtain ⟨sch, -, -, -, -, -, -, -, -, rfl⟩ := (C86_tu hmem hd hm ht hev s).1 hs
  exact ⟨_, rfl, rfl⟩

example : ("IMDBMULTI", 3, false) ∈ tuDatasets ∧ tuArgs.includeDownAdj = true ∧ tuArgs.model = "cin++" ∧
    (startExp ⟨fun _ => 1, fun _ => 1, false⟩ (fun _ => none) tuArgs).isOk = true := by
  decide +kernel

/-- **C86** A started `SparseCIN` or `CINpp` predicts as many numbers as the dataset has classes, for every batch whose
features have the width of the dataset, if there is a layer, some processed dimension is read out and the final readout,
which is not checked before, has a supported name. -/
theorem C86_predictions {s : Setup} {l : Loaded} (hs : startExp d k a = .ok s) (hl : s.data = some l)
    (hn : s.net.net = .sparse ∨ s.net.net = .pp) (hk : a.numLayers ≠ 0) (hf : okReadout a.finalReadout)
    (hr : ∃ i ∈ a.readoutDims, i ≤ l.maxDim) (data : List LevelShape)
    (hd : Columns data l.maxDim (d.width a.dataset)) (hu : a.useCoboundaries = true → UpTo data l.maxDim) :
    l.numClasses = some s.net.output ∧
    if s.net.net = .sparse then
      ∃ net, (a.sparse s.net.input s.net.output s.net.maxDim).sparseCIN = .ok net ∧
        net.forward SparseWidths.forward data = .ok s.net.output
    else
      ∃ net, (a.sparse s.net.input s.net.output s.net.maxDim).cinpp = .ok net ∧
        net.forward PPWidths.forward data = .ok s.net.output := by
  have hg : startGraphs d k a ≠ .ok s := by
    intro h
    obtain ⟨_, _, _, _, _, _, _, _, _, _, rfl⟩ := startGraphs_ok.1 h
    cases hl
  have hc : startComplexes d k a = .ok s := by
    simp only [startExp, bind_eq_ok] at hs
    obtain ⟨_, _, hs⟩ := hs
    split at hs
    · exact absurd hs hg
    · exact hs
  obtain ⟨l', e, kind, net, sch, h1, -, -, h4, h5, -, rfl⟩ := startComplexes_ok.1 hc
  cases hl
  have hp : ∃ m, Found true true true true a ∧ l.numClasses = some m ∧
      net = { net := net.net, input := d.width a.dataset, output := m, maxDim := l.maxDim } := by
    have key := startNet_plain h5 hn
    rw [startPlain_ok] at key
    obtain ⟨h6, -, -, m, h7, h8⟩ := key
    exact ⟨m, h6, h7, h8⟩
  obtain ⟨m, ⟨h6, h7, h8, h9⟩, h10, h11⟩ := hp
  have hout : net.output = m := by rw [h11]
  have hin : net.input = d.width a.dataset := by rw [h11]
  have hmax : net.maxDim = l.maxDim := by rw [h11]
  have hnamed : (a.sparse net.input net.output net.maxDim).Named := ⟨⟨h6 rfl, h7 rfl, h8 rfl, h9 rfl⟩, hf⟩
  have hreads : (a.sparse net.input net.output net.maxDim).ReadsOut := by
    simpa [SparseArgs.ReadsOut, Args.sparse, hmax] using hr
  refine ⟨by rw [hout]; exact h10, ?_⟩
  split
  · exact C82_sparse_cin _ hnamed hreads hk data (by simpa [Args.sparse, hin, hmax] using hd)
      (by simpa [Args.sparse, hmax] using hu)
  · exact C82_cinpp _ hnamed hreads hk data (by simpa [Args.sparse, hin, hmax] using hd)
      (by simpa [Args.sparse, hmax] using hu)

example : ∃ s l, startExp ⟨fun _ => 1, fun _ => 3, false⟩ (fun _ => none) tuArgs = .ok s ∧ s.data = some l ∧
    s.net.net = .pp ∧ tuArgs.numLayers ≠ 0 ∧ okReadout tuArgs.finalReadout ∧ (∃ i ∈ tuArgs.readoutDims, i ≤ l.maxDim) ∧
    Columns (WidthsEx.batch 3) l.maxDim 3 :=
  ⟨_, _, (C86_tu (name := "IMDBMULTI") (classes := 3) (passed := false) (net := .pp) (by decide) rfl (by decide) (by decide) rfl _).2
    ⟨.stepLR, nofun, nofun, rfl, by decide, fun _ => by decide, by decide, by decide, by decide, rfl⟩,
    rfl, rfl, by decide, by decide, ⟨0, by decide, by decide⟩, batch_columns _ _⟩

/-! ### Names, graphs and complexes -/

/-- **C86** A dataset of graphs has the classes (for OGB: tasks) of the dataset of complexes of the same name. -/
theorem C86_same_classes (hd : beginsWith "sr" a.dataset = false) {l : Loaded} {g : Graphs}
    (hl : loadDataset d a = .ok l) (hg : loadGraphs d a = .ok g) :
    g.numClasses = if l.cls = .ogb then l.numTasks else l.numClasses := by
  have hmem : ∃ r, (a.dataset, r) ∈ graphTable d a ∧ r = .ok g := by
    unfold loadGraphs at hg
    rw [if_neg (by simp [hd])] at hg
    split at hg
    · next r hr => exact ⟨_, mem_of_lookup hr, hg⟩
    · cases hg
  obtain ⟨r, hmem, rfl⟩ := hmem
  simp only [graphTable, List.mem_append, or_assoc] at hmem
  rcases hmem with h | h | h
  · have htu : ∀ {name : String} {c : Nat} {p : Bool}, (name, c, p) ∈ tuDatasets → a.dataset = name →
        .ok g = graphsTU c a → g.numClasses = if l.cls = .ogb then l.numTasks else l.numClasses := by
      intro name c p hm hn hr
      rw [load_tu hm hn, openTU_ok] at hl
      obtain ⟨-, -, rfl⟩ := hl
      simp only [graphsTU, eq_comm (a := Except.ok g), bind_eq_ok, pure_eq_ok] at hr
      obtain ⟨_, _, hr⟩ := hr
      rw [← ok_inj.1 hr]
      rfl
    have hzinc : a.dataset = "ZINC" ∨ a.dataset = "ZINC-FULL" → g.numClasses = some 1 →
        g.numClasses = if l.cls = .ogb then l.numTasks else l.numClasses := by
      intro hz hc
      have : loadDataset d a = openZinc a := by
        unfold loadDataset; rcases hz with h | h <;> rw [h] <;> rfl
      rw [this, openZinc_ok] at hl
      obtain ⟨_, _, rfl⟩ := hl
      exact hc
    simp only [List.mem_cons, Prod.mk.injEq, List.not_mem_nil, or_false] at h
    rcases h with h | h | h | h | h | h | h | h | h | h | h | h | h
    · exact htu (p := false) (by decide) h.1 h.2
    · exact htu (p := false) (by decide) h.1 h.2
    · exact htu (p := false) (by decide) h.1 h.2
    · exact htu (p := false) (by decide) h.1 h.2
    · exact htu (p := true) (by decide) h.1 h.2
    · exact htu (p := true) (by decide) h.1 h.2
    · exact htu (p := true) (by decide) h.1 h.2
    · exact htu (p := true) (by decide) h.1 h.2
    · exact htu (p := true) (by decide) h.1 h.2
    · exact hzinc (.inl h.1) (by rw [ok_inj.1 h.2])
    · have := h.2; unfold graphsPepF at this; split at this <;> cases this
    · cases h.2
    · exact hzinc (.inr h.1) (by rw [ok_inj.1 h.2])
  · obtain ⟨n, hn, h⟩ := List.mem_map.1 h
    rw [Prod.mk.injEq] at h
    rw [load_ogb hn h.1.symm, openOGB_ok] at hl
    obtain ⟨_, _, rfl⟩ := hl
    rw [← ok_inj.1 h.2]
    rfl
  · simp only [List.mem_cons, Prod.mk.injEq, List.not_mem_nil, or_false] at h
    rcases h with h | h
    · cases h.2
    · have : loadDataset d a = openRingLookup a := by unfold loadDataset; rw [h.1]; rfl
      rw [this, openRingLookup_ok] at hl
      obtain ⟨n, h1, rfl⟩ := hl
      have h2 := h.2
      simp only [graphsRingLookup, eq_comm (a := Except.ok g), bind_eq_ok, ringSize_ok, pure_eq_ok] at h2
      obtain ⟨n', h3, h4⟩ := h2
      rw [h1] at h3
      cases h3
      rw [← ok_inj.1 h4]
      rfl

example : ∃ l g, loadDataset ⟨fun _ => 7, fun _ => 1, false⟩ { ogbArgs with dataset := "MOLTOX21" } = .ok l ∧
    loadGraphs ⟨fun _ => 7, fun _ => 1, false⟩ { ogbArgs with dataset := "MOLTOX21" } = .ok g ∧
    l.numClasses = none ∧ l.numTasks = some 7 ∧ g.numClasses = some 7 := ⟨_, _, rfl, rfl, rfl, rfl, rfl⟩

/-- **C86** The names of the datasets are exactly those listed (and those that begin with `sr`): every other name is a
`NotImplementedError`, for complexes and for graphs. -/
theorem C86_unknown_datasets (hd : beginsWith "sr" a.dataset = false) :
    (a.dataset ∉ datasetNames → loadDataset d a = .error .notImplemented) ∧
    (a.dataset ∉ graphDatasetNames → loadGraphs d a = .error .notImplemented) := by
  constructor
  · intro h
    unfold loadDataset
    rw [if_neg (by simp [hd])]
    split
    · next r hr =>
      refine absurd ?_ h
      have := List.mem_map_of_mem (f := Prod.fst) (mem_of_lookup hr)
      exact this
    · rfl
  · intro h
    unfold loadGraphs
    rw [if_neg (by simp [hd])]
    split
    · next r hr =>
      refine absurd ?_ h
      have := List.mem_map_of_mem (f := Prod.fst) (mem_of_lookup hr)
      exact this
    · rfl

example : "ZINC-SUBSET" ∉ datasetNames ∧ beginsWith "sr" "ZINC-SUBSET" = false ∧ "CSL" ∉ graphDatasetNames ∧
    validateArgs { zincArgs with dataset := "ZINC-SUBSET" } = .ok () := by decide +kernel

/-- **C86** Three kinds of experiments on complexes never start: with a tuning split, on CLUSTER, and (on graphs) on the
peptides. -/
theorem C86_never_start :
    (a.tune = true → beginsWith "gin" a.model = false → ∀ s, startExp d k a ≠ .ok s) ∧
    (a.dataset = "CLUSTER" → ∀ s, startExp d k a ≠ .ok s) ∧
    (a.dataset = "PEPTIDES-F" ∨ a.dataset = "PEPTIDES-S" → beginsWith "gin" a.model = true →
      ∀ s, startExp d k a ≠ .ok s) := by
  refine ⟨fun ht hm s h => ?_, fun hd s h => ?_, fun hd hm s h => ?_⟩
  · simp only [startExp, bind_eq_ok, hm] at h
    obtain ⟨_, _, h⟩ := h
    obtain ⟨_, _, _, _, _, _, h, _⟩ := startComplexes_ok.1 h
    rw [checkSplits_ok, ht] at h
    cases h.1
  · simp only [startExp, bind_eq_ok] at h
    obtain ⟨_, _, h⟩ := h
    split at h
    · obtain ⟨g, _, _, _, _, h1, _⟩ := startGraphs_ok.1 h
      unfold loadGraphs at h1
      rw [hd] at h1
      cases h1
    · obtain ⟨l, _, _, _, _, h1, h2, _⟩ := startComplexes_ok.1 h
      have : loadDataset d a = .ok openCluster := by unfold loadDataset; rw [hd]; rfl
      rw [this] at h1
      cases h1
      have := (checkSplits_ok.1 h2).2
      cases this
  · simp only [startExp, bind_eq_ok, hm] at h
    obtain ⟨_, _, h⟩ := h
    obtain ⟨g, _, _, _, _, h1, _⟩ := startGraphs_ok.1 h
    unfold loadGraphs at h1
    rcases hd with hd | hd
    · rw [hd] at h1
      have : graphsPepF d = .ok g := h1
      unfold graphsPepF at this
      split at this <;> cases this
    · rw [hd] at h1
      have : graphsPepS = .ok g := h1
      cases this

/-- **C86** What networks on graphs raise for the peptides: `TypeError` from the missing argument of `collate`, or
`KeyError` from the columns before if the file does not have them. -/
theorem C86_peptides_raise (hm : beginsWith "gin" a.model = true)
    (ht : taskOf a.taskType ≠ .isomorphism) :
    (a.dataset = "PEPTIDES-S" → startExp d k a = .error .type) ∧
    (a.dataset = "PEPTIDES-F" → startExp d k a = .error (if d.pepTargets then .type else .key)) := by
  have h0 : startExp d k a = startGraphs d k a := by
    unfold startExp
    rw [show (taskOf a.taskType != .isomorphism || beginsWith "sr" a.dataset) = true by simp [ht], hm]
    rfl
  refine ⟨fun hd => ?_, fun hd => ?_⟩
  · have : loadGraphs d a = .error .type := by unfold loadGraphs; rw [hd]; rfl
    rw [h0, startGraphs, this]
    rfl
  · have : loadGraphs d a = graphsPepF d := by unfold loadGraphs; rw [hd]; rfl
    rw [h0, startGraphs, this]
    unfold graphsPepF
    split <;> rfl

example : beginsWith "gin" { zincArgs with model := "gin", dataset := "PEPTIDES-F" }.model = true ∧
    taskOf { zincArgs with model := "gin", dataset := "PEPTIDES-F" }.taskType ≠ .isomorphism := by decide +kernel

example : { tuArgs with tune := true }.tune = true ∧ beginsWith "gin" "cin++" = false ∧ beginsWith "gin" "gin_jk" = true := by
  decide +kernel

end Verif
