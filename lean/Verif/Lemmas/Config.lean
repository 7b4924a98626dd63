import Verif.Model.Config
import Verif.Spec.Widths
import Verif.Spec.Config
import Verif.Lemmas.Widths

/-! # Lemmas on starting experiments -/

namespace Verif

theorem poolingFn_ok_iff {s : String} : (∃ p, getPoolingFn s = .ok p) ↔ okReadout s := by
  simp only [getPoolingFn, okReadout, List.mem_cons, List.not_mem_nil, or_false]
  split <;> [simp [*]; split <;> simp [*]]

theorem graphNorm_ok_iff {s : String} : (∃ p, getGraphNorm s = .ok p) ↔ okNorm s := by
  simp only [getGraphNorm, okNorm, List.mem_cons, List.not_mem_nil, or_false]
  split <;> [simp [*]; split <;> [simp [*]; split <;> simp [*]]]

theorem nonlinearity_ok_iff {s : String} : (∃ p, getNonlinearity s = .ok p) ↔ okNonlinearity s := by
  simp only [getNonlinearity, okNonlinearity, List.mem_cons, List.not_mem_nil, or_false]
  split <;> [simp [*]; split <;> [simp [*]; split <;> [simp [*]; split <;> [simp [*]; split <;> simp [*]]]]]

theorem jump_ok_iff {s : Option String} : (∃ p, makeJump s = .ok p) ↔ okJump s := by
  simp only [okJump, List.mem_cons, List.not_mem_nil, or_false]
  cases s with
  | none => simp [makeJump]
  | some m =>
    simp only [makeJump, jumpingKnowledge]
    split <;> [simp [*, Functor.map, Except.map]; split <;> simp [*, Functor.map, Except.map]]

theorem void_ok {α : Type} {x : Py α} {u : Unit} : ((fun _ => ()) <$> x) = .ok u ↔ ∃ v, x = .ok v := by
  cases x <;> simp [Functor.map, Except.map]

theorem when_ok {α : Type} {b : Bool} {x : Py α} {u : Unit} :
    checkName b x = .ok u ↔ (b = true → ∃ v, x = .ok v) := by
  cases b
  · simp [checkName]
  · simp [checkName, void_ok]

theorem lookups_ok {r n c j : Bool} {a : Args} {u : Unit} : lookups r n c j a = .ok u ↔
    (r = true → okReadout a.readout) ∧ (n = true → okNorm a.graphNorm) ∧
    (c = true → okNonlinearity a.nonlinearity) ∧ (j = true → okJump a.jumpMode) := by
  rw [lookups]
  simp only [bind_eq_ok, when_ok, poolingFn_ok_iff, graphNorm_ok_iff, nonlinearity_ok_iff, jump_ok_iff]
  constructor
  · rintro ⟨_, h1, _, h2, _, h3, h4⟩; exact ⟨h1, h2, h3, h4⟩
  · rintro ⟨h1, h2, h3, h4⟩; exact ⟨(), h1, (), h2, (), h3, h4⟩

theorem layerSize_ok {v : Option Nat} {n : Nat} : layerSize v = .ok n ↔ v = some n := by
  cases v <;> simp [layerSize]

theorem attr?_ok {v : Option Nat} {n : Nat} : attr? v = .ok n ↔ v = some n := by
  cases v <;> simp [attr?]

theorem ringSize_ok {a : Args} {n : Nat} : ringSize a = .ok n ↔ a.maxRingSize = some n := by
  rw [ringSize]; split <;> simp_all

theorem foldNumber_ok {a : Args} {n : Nat} : foldNumber a = .ok n ↔ a.fold = some n := by
  rw [foldNumber]; split <;> simp_all

theorem startComplexes_ok {d : Disk} {k : String → Option String} {a : Args} {s : Setup} :
    startComplexes d k a = .ok s ↔ ∃ l e kind net sch, loadDataset d a = .ok l ∧ checkSplits a l = .ok () ∧
      makeEvaluator k a.evalMetric = .ok e ∧ netOf a.model = .ok kind ∧ startNet d a l kind = .ok net ∧
      makeScheduler a.lrScheduler = .ok sch ∧
      s = { data := some l, test := l.test, net := net, evaluator := e, scheduler := sch } := by
  simp only [startComplexes, bind_eq_ok, pure_eq_ok]
  constructor
  · rintro ⟨l, h1, _, h2, e, h3, kind, h4, net, h5, sch, h6, h7⟩
    exact ⟨l, e, kind, net, sch, h1, h2, h3, h4, h5, h6, (ok_inj.1 h7).symm⟩
  · rintro ⟨l, e, kind, net, sch, h1, h2, h3, h4, h5, h6, h7⟩
    exact ⟨l, h1, _, h2, e, h3, kind, h4, net, h5, sch, h6, by rw [h7]⟩

theorem startGraphs_ok {d : Disk} {k : String → Option String} {a : Args} {s : Setup} :
    startGraphs d k a = .ok s ↔ ∃ g e kind net sch, loadGraphs d a = .ok g ∧
      makeEvaluator k a.evalMetric = .ok e ∧ netOf a.model = .ok kind ∧ startGraphNet d a g kind = .ok net ∧
      makeScheduler a.lrScheduler = .ok sch ∧
      s = { data := none, test := g.test, net := net, evaluator := e, scheduler := sch } := by
  simp only [startGraphs, bind_eq_ok, pure_eq_ok]
  constructor
  · rintro ⟨l, h1, e, h3, kind, h4, net, h5, sch, h6, h7⟩
    exact ⟨l, e, kind, net, sch, h1, h3, h4, h5, h6, (ok_inj.1 h7).symm⟩
  · rintro ⟨l, e, kind, net, sch, h1, h3, h4, h5, h6, h7⟩
    exact ⟨l, h1, e, h3, kind, h4, net, h5, sch, h6, by rw [h7]⟩

theorem startExp_complexes {d : Disk} {k : String → Option String} {a : Args}
    (ht : a.taskType ≠ "isomorphism" ∨ beginsWith "sr" a.dataset = true) (hm : beginsWith "gin" a.model = false) :
    startExp d k a = startComplexes d k a := by
  have : (taskOf a.taskType != .isomorphism || beginsWith "sr" a.dataset) = true := by
    rcases ht with h | h
    · have : taskOf a.taskType ≠ .isomorphism := by
        unfold taskOf
        split <;> [simp; split <;> [simp; split <;> [simp; split <;> [simp; simp [h]]]]]
      simp [this]
    · simp [h]
  simp only [startExp, this, pyAssert, ok_bind, hm, if_true]
  rfl

theorem startExp_graphs {d : Disk} {k : String → Option String} {a : Args}
    (ht : a.taskType ≠ "isomorphism" ∨ beginsWith "sr" a.dataset = true) (hm : beginsWith "gin" a.model = true) :
    startExp d k a = startGraphs d k a := by
  have : (taskOf a.taskType != .isomorphism || beginsWith "sr" a.dataset) = true := by
    rcases ht with h | h
    · have : taskOf a.taskType ≠ .isomorphism := by
        unfold taskOf
        split <;> [simp; split <;> [simp; split <;> [simp; split <;> [simp; simp [h]]]]]
      simp [this]
    · simp [h]
  simp only [startExp, this, pyAssert, ok_bind, hm, if_true]

theorem checkSplits_ok {a : Args} {l : Loaded} : checkSplits a l = .ok () ↔ a.tune = false ∧ l.readable = true := by
  rw [checkSplits]
  split <;> [split <;> simp_all; split <;> simp_all]

theorem checkRings_ok {a : Args} : checkRings a = .ok () ↔ ∀ n, a.maxRingSize = some n → 3 < n ∧ a.maxDim = 2 := by
  rw [checkRings]
  simp only [bind_eq_ok, pyAssert_eq_ok]
  cases a.maxRingSize with
  | none => simp
  | some n => simp

/-- The names that `lookups` finds. -/
def Found (readout norm act jump : Bool) (a : Args) : Prop :=
  (readout = true → okReadout a.readout) ∧ (norm = true → okNorm a.graphNorm) ∧
  (act = true → okNonlinearity a.nonlinearity) ∧ (jump = true → okJump a.jumpMode)

theorem lookups_found {r n c j : Bool} {a : Args} {u : Unit} : lookups r n c j a = .ok u ↔ Found r n c j a :=
  lookups_ok

theorem startPlain_ok {d : Disk} {a : Args} {l : Loaded} {net : Net} {r n c j : Bool} {s : Started} :
    startPlain d a l net r n c j = .ok s ↔ Found r n c j a ∧ l.cls ≠ .flow ∧ l.cls ≠ .ocean ∧
      ∃ k, l.numClasses = some k ∧ s = { net := net, input := d.width a.dataset, output := k, maxDim := l.maxDim } := by
  have hi : ∀ w, inputWidth d a l = .ok w ↔ l.cls ≠ .flow ∧ l.cls ≠ .ocean ∧ w = d.width a.dataset := by
    intro w; rw [inputWidth]; split <;> simp_all [eq_comm]
    intro h1 h2; simp_all
  simp only [startPlain, bind_eq_ok, hi, lookups_found, layerSize_ok, pure_eq_ok]
  constructor
  · rintro ⟨w, ⟨h1, h2, rfl⟩, _, h3, k, h4, h5⟩; exact ⟨h3, h1, h2, k, h4, (ok_inj.1 h5).symm⟩
  · rintro ⟨h3, h1, h2, k, h4, rfl⟩; exact ⟨_, ⟨h1, h2, rfl⟩, (), h3, k, h4, rfl⟩

theorem startEdge_ok {a : Args} {l : Loaded} {net : Net} {s : Started} :
    startEdge a l net = .ok s ↔ Found true false true false a ∧
      ∃ k, l.numClasses = some k ∧ s = { net := net, input := 1, output := k, maxDim := 1 } := by
  simp only [startEdge, bind_eq_ok, lookups_found, layerSize_ok, pure_eq_ok]
  constructor
  · rintro ⟨_, h3, k, h4, h5⟩; exact ⟨h3, k, h4, (ok_inj.1 h5).symm⟩
  · rintro ⟨h3, k, h4, rfl⟩; exact ⟨(), h3, k, h4, rfl⟩

theorem startEmbed_ok {a : Args} {l : Loaded} {net : Net} {r n j : Bool} {m : Nat} {s : Started} :
    startEmbed a l net r n j m = .ok s ↔ Found r n true j a ∧ ∃ t e k, l.nodeTypes = some t ∧ l.edgeTypes = some e ∧
      l.numClasses = some k ∧ s = { net := net, input := t, output := k, maxDim := m } := by
  simp only [startEmbed, bind_eq_ok, attr?_ok, lookups_found, layerSize_ok, pure_eq_ok]
  constructor
  · rintro ⟨t, h1, e, h2, _, h3, k, h4, h5⟩; exact ⟨h3, t, e, k, h1, h2, h4, (ok_inj.1 h5).symm⟩
  · rintro ⟨h3, t, e, k, h1, h2, h4, rfl⟩; exact ⟨t, h1, e, h2, (), h3, k, h4, rfl⟩

theorem startOGB_ok {a : Args} {l : Loaded} {net : Net} {s : Started} :
    startOGB a l net = .ok s ↔ Found false true true true a ∧
      ∃ t, l.numTasks = some t ∧ s = { net := net, input := 9, output := t, maxDim := l.maxDim } := by
  simp only [startOGB, bind_eq_ok, attr?_ok, lookups_found, pure_eq_ok]
  constructor
  · rintro ⟨t, h1, _, h3, h5⟩; exact ⟨h3, t, h1, (ok_inj.1 h5).symm⟩
  · rintro ⟨h3, t, h1, rfl⟩; exact ⟨t, h1, (), h3, rfl⟩

theorem openTU_ok {c : Nat} {down : Bool} {a : Args} {l : Loaded} : openTU c down a = .ok l ↔
    (∀ n, a.maxRingSize = some n → 3 < n ∧ a.maxDim = 2) ∧ (∃ f, a.fold = some f) ∧
    l = { cls := .tu, maxDim := a.maxDim, numClasses := some c, rings := a.maxRingSize, downAdj := down,
          test := false } := by
  simp only [openTU, bind_eq_ok, foldNumber_ok, pure_eq_ok]
  constructor
  · rintro ⟨_, h1, f, h2, h3⟩; exact ⟨checkRings_ok.1 h1, ⟨f, h2⟩, (ok_inj.1 h3).symm⟩
  · rintro ⟨h1, ⟨f, h2⟩, rfl⟩; exact ⟨(), checkRings_ok.2 h1, f, h2, rfl⟩

theorem openSR_ok {a : Args} {l : Loaded} : openSR a = .ok l ↔
    (∀ n, a.maxRingSize = some n → 3 < n ∧ a.maxDim = 2) ∧
    l = { cls := .sr, maxDim := a.maxDim, numClasses := some 16, rings := a.maxRingSize } := by
  simp only [openSR, bind_eq_ok, pure_eq_ok]
  constructor
  · rintro ⟨_, h1, h3⟩; exact ⟨checkRings_ok.1 h1, (ok_inj.1 h3).symm⟩
  · rintro ⟨h1, rfl⟩; exact ⟨(), checkRings_ok.2 h1, rfl⟩

theorem openCSL_ok {a : Args} {l : Loaded} : openCSL a = .ok l ↔ ∃ n f, a.maxRingSize = some n ∧ a.fold = some f ∧
    f < 5 ∧ l = { cls := .csl, maxDim := 2, numClasses := some 10, nodeTypes := some 1, edgeTypes := some 1,
                  rings := some n } := by
  simp only [openCSL, bind_eq_ok, ringSize_ok, foldNumber_ok, pyAssert_eq_ok, pure_eq_ok, decide_eq_true_eq]
  constructor
  · rintro ⟨n, h1, f, h2, _, h3, h4⟩; exact ⟨n, f, h1, h2, by omega, (ok_inj.1 h4).symm⟩
  · rintro ⟨n, f, h1, h2, h3, rfl⟩; exact ⟨n, h1, f, h2, (), by omega, rfl⟩

theorem openZinc_ok {a : Args} {l : Loaded} : openZinc a = .ok l ↔ ∃ n, a.maxRingSize = some n ∧
    l = { cls := .zinc, maxDim := 2, numClasses := some 1, nodeTypes := some 28, edgeTypes := some 4, rings := some n,
          downAdj := a.includeDownAdj } := by
  simp only [openZinc, bind_eq_ok, ringSize_ok, pure_eq_ok]
  constructor
  · rintro ⟨n, h1, h4⟩; exact ⟨n, h1, (ok_inj.1 h4).symm⟩
  · rintro ⟨n, h1, rfl⟩; exact ⟨n, h1, rfl⟩

theorem openOGB_ok {d : Disk} {o : String} {a : Args} {l : Loaded} : openOGB d o a = .ok l ↔
    ∃ n, a.maxRingSize = some n ∧
      l = { cls := .ogb, maxDim := 2, numClasses := none, numTasks := some (d.tasks o), rings := some n,
            downAdj := a.includeDownAdj } := by
  simp only [openOGB, bind_eq_ok, ringSize_ok, pure_eq_ok]
  constructor
  · rintro ⟨n, h1, h4⟩; exact ⟨n, h1, (ok_inj.1 h4).symm⟩
  · rintro ⟨n, h1, rfl⟩; exact ⟨n, h1, rfl⟩

theorem openRingTransfer_ok {a : Args} {l : Loaded} : openRingTransfer a = .ok l ↔ ∃ n, a.maxRingSize = some n ∧
    l = { cls := .ringTransfer, maxDim := 2, numClasses := some 5, rings := some n, test := false } := by
  simp only [openRingTransfer, bind_eq_ok, ringSize_ok, pure_eq_ok]
  constructor
  · rintro ⟨n, h1, h4⟩; exact ⟨n, h1, (ok_inj.1 h4).symm⟩
  · rintro ⟨n, h1, rfl⟩; exact ⟨n, h1, rfl⟩

theorem openRingLookup_ok {a : Args} {l : Loaded} : openRingLookup a = .ok l ↔ ∃ n, a.maxRingSize = some n ∧
    l = { cls := .ringLookup, maxDim := 2, numClasses := some (n - 1), rings := some n, test := false } := by
  simp only [openRingLookup, bind_eq_ok, ringSize_ok, pure_eq_ok]
  constructor
  · rintro ⟨n, h1, h4⟩; exact ⟨n, h1, (ok_inj.1 h4).symm⟩
  · rintro ⟨n, h1, rfl⟩; exact ⟨n, h1, rfl⟩

/-- `startComplexes` where all but the dataset and the network is known. -/
theorem startComplexes_iff {d : Disk} {k : String → Option String} {a : Args} {e : EvalFn} {kind : Net}
    {sch : Scheduler} (he : makeEvaluator k a.evalMetric = .ok e) (hn : netOf a.model = .ok kind)
    (hs : makeScheduler a.lrScheduler = .ok sch) {s : Setup} :
    startComplexes d k a = .ok s ↔ ∃ l net, loadDataset d a = .ok l ∧ a.tune = false ∧ l.readable = true ∧
      startNet d a l kind = .ok net ∧
      s = { data := some l, test := l.test, net := net, evaluator := e, scheduler := sch } := by
  rw [startComplexes_ok]
  simp only [he, hn, hs, checkSplits_ok, ok_inj]
  constructor
  · rintro ⟨l, _, _, net, _, h1, ⟨h2, h3⟩, rfl, rfl, h4, rfl, h5⟩; exact ⟨l, net, h1, h2, h3, h4, h5⟩
  · rintro ⟨l, net, h1, h2, h3, h4, h5⟩; exact ⟨l, _, _, net, _, h1, ⟨h2, h3⟩, rfl, rfl, h4, rfl, h5⟩

theorem mem_of_lookup {α β : Type} [BEq α] [LawfulBEq α] {x : α} {y : β} :
    ∀ {l : List (α × β)}, l.lookup x = some y → (x, y) ∈ l
  | (x', y') :: l, h => by
    rw [List.lookup_cons] at h
    split at h
    · next hx => cases h; rw [beq_iff_eq.1 hx]; exact .head _
    · exact .tail _ (mem_of_lookup h)

theorem ogb_cases {n : String × String} (hn : n ∈ ogbNames) (P : String × String → Prop)
    (h : P ("MOLHIV", "ogbg-molhiv") ∧ P ("MOLPCBA", "ogbg-molpcba") ∧ P ("MOLTOX21", "ogbg-moltox21") ∧
      P ("MOLTOXCAST", "ogbg-moltoxcast") ∧ P ("MOLMUV", "ogbg-molmuv") ∧ P ("MOLBACE", "ogbg-molbace") ∧
      P ("MOLBBBP", "ogbg-molbbbp") ∧ P ("MOLCLINTOX", "ogbg-molclintox") ∧ P ("MOLSIDER", "ogbg-molsider") ∧
      P ("MOLESOL", "ogbg-molesol") ∧ P ("MOLFREESOLV", "ogbg-molfreesolv") ∧ P ("MOLLIPO", "ogbg-mollipo")) :
    P n := by
  simp only [ogbNames, List.mem_cons, List.not_mem_nil, or_false] at hn
  obtain ⟨h1, h2, h3, h4, h5, h6, h7, h8, h9, h10, h11, h12⟩ := h
  rcases hn with rfl | rfl | rfl | rfl | rfl | rfl | rfl | rfl | rfl | rfl | rfl | rfl <;> assumption

theorem validate_csl {a : Args} (hd : a.dataset = "CSL") : validateArgs a = validateCSL a := by
  unfold validateArgs; rw [if_pos hd]

theorem validate_ring {a : Args} (hd : a.dataset = "RING-TRANSFER" ∨ a.dataset = "RING-LOOKUP") :
    validateArgs a = validateRing a := by
  unfold validateArgs; rw [if_neg (by rcases hd with h | h <;> rw [h] <;> decide), if_pos hd]

theorem validate_zinc {a : Args} (hd : beginsWith "ZINC" a.dataset = true) : validateArgs a = validateZinc a := by
  have h : ∀ t, beginsWith "ZINC" t = false → a.dataset ≠ t := by rintro t ht rfl; rw [ht] at hd; cases hd
  unfold validateArgs
  rw [if_neg (h _ rfl), if_neg (by rintro (h' | h') <;> exact h _ rfl h'), if_pos hd]

theorem validate_ogb {a : Args} {n : String × String} (hn : n ∈ ogbNames) (hd : a.dataset = n.1) :
    validateArgs a = validateOgb a n.2 := by
  unfold validateArgs
  rw [hd]
  simp only [ogbNames, List.mem_cons, List.not_mem_nil, or_false] at hn
  rcases hn with rfl | rfl | rfl | rfl | rfl | rfl | rfl | rfl | rfl | rfl | rfl | rfl <;> rfl

theorem validate_sr {a : Args} (hd : beginsWith "sr" a.dataset = true) : validateArgs a = validateSR a := by
  have h : ∀ t, beginsWith "sr" t = false → a.dataset ≠ t := by rintro t ht rfl; rw [ht] at hd; cases hd
  have hz : beginsWith "ZINC" a.dataset = false := by
    by_contra hz
    simp only [beginsWith, List.isPrefixOf_iff_prefix, Bool.not_eq_false] at hd hz
    obtain ⟨u, hu⟩ := hd
    obtain ⟨v, hv⟩ := hz
    rw [← hu] at hv
    cases hv
  have ho : ogbNames.lookup a.dataset = none := by
    rw [List.lookup_eq_none_iff]
    intro n hn
    rw [bne_iff_ne]
    apply h
    exact ogb_cases hn (fun n => beginsWith "sr" n.1 = false) ⟨rfl, rfl, rfl, rfl, rfl, rfl, rfl, rfl, rfl, rfl, rfl, rfl⟩
  unfold validateArgs
  rw [if_neg (h _ rfl), if_neg (by rintro (h' | h') <;> exact h _ rfl h'), if_neg (by simp [hz]), ho]
  exact if_pos hd

theorem validate_flow {a : Args} (hd : a.dataset = "FLOW" ∨ a.dataset = "OCEAN") :
    validateArgs a = validateFlow a := by
  unfold validateArgs
  rcases hd with h | h <;> rw [h] <;> rfl

theorem load_ogb {d : Disk} {a : Args} {n : String × String} (hn : n ∈ ogbNames) (hd : a.dataset = n.1) :
    loadDataset d a = openOGB d n.2 a := by
  unfold loadDataset
  rw [hd]
  simp only [ogbNames, List.mem_cons, List.not_mem_nil, or_false] at hn
  rcases hn with rfl | rfl | rfl | rfl | rfl | rfl | rfl | rfl | rfl | rfl | rfl | rfl <;> rfl

theorem evaluator_ogb {k : String → Option String} {n : String × String} (hn : n ∈ ogbNames) {e : EvalFn} :
    makeEvaluator k n.2 = .ok e ↔ ∃ key, k n.2 = some key ∧ e = .ogb key := by
  have : makeEvaluator k n.2 = match k n.2 with
    | some key => .ok (.ogb key)
    | none => .error .value := by
    simp only [ogbNames, List.mem_cons, List.not_mem_nil, or_false] at hn
    rcases hn with rfl | rfl | rfl | rfl | rfl | rfl | rfl | rfl | rfl | rfl | rfl | rfl <;> rfl
  rw [this]
  cases k n.2 <;> simp [eq_comm]

/-- The names of the schedulers. -/
theorem scheduler_ok {name : String} {s : Scheduler} : makeScheduler name = .ok s ↔
    (name, s) ∈ [("ReduceLROnPlateau", Scheduler.plateau), ("StepLR", .stepLR), ("None", .none)] := by
  simp only [List.mem_cons, Prod.mk.injEq, List.not_mem_nil, or_false, makeScheduler]
  split
  · simp_all [eq_comm]
  split
  · simp_all [eq_comm]
  split
  · simp_all [eq_comm]
  · simp_all

theorem load_tu {d : Disk} {a : Args} {name : String} {classes : Nat} {passed : Bool}
    (hmem : (name, classes, passed) ∈ tuDatasets) (hd : a.dataset = name) :
    loadDataset d a = openTU classes (passed && a.includeDownAdj) a := by
  unfold loadDataset
  rw [hd]
  simp only [tuDatasets, List.mem_cons, Prod.mk.injEq, List.not_mem_nil, or_false] at hmem
  rcases hmem with ⟨rfl, rfl, rfl⟩ | ⟨rfl, rfl, rfl⟩ | ⟨rfl, rfl, rfl⟩ | ⟨rfl, rfl, rfl⟩ | ⟨rfl, rfl, rfl⟩ |
    ⟨rfl, rfl, rfl⟩ | ⟨rfl, rfl, rfl⟩ | ⟨rfl, rfl, rfl⟩ | ⟨rfl, rfl, rfl⟩ <;> rfl

theorem loadDataset_names {d : Disk} {a : Args} {l : Loaded} (h : loadDataset d a = .ok l) :
    beginsWith "sr" a.dataset = true ∨ a.dataset ∈ datasetNames := by
  unfold loadDataset at h
  split at h
  · next h' => exact .inl h'
  · split at h
    · next r hr =>
      have := List.mem_map_of_mem (f := Prod.fst) (mem_of_lookup hr)
      exact .inr this
    · cases h

theorem startNet_plain {d : Disk} {a : Args} {l : Loaded} {kind : Net} {net : Started}
    (h : startNet d a l kind = .ok net) (hn : net.net = .sparse ∨ net.net = .pp) :
    startPlain d a l net.net true true true true = .ok net := by
  have hp : ∀ {m r n c j}, startPlain d a l m r n c j = .ok net → net.net = m := by
    intro m r n c j h
    obtain ⟨-, -, -, _, -, rfl⟩ := startPlain_ok.1 h; rfl
  have he : ∀ {m}, startEdge a l m = .ok net → net.net = m := by
    intro m h; obtain ⟨-, _, -, rfl⟩ := startEdge_ok.1 h; rfl
  have hb : ∀ {m r n j i}, startEmbed a l m r n j i = .ok net → net.net = m := by
    intro m r n j i h; obtain ⟨-, _, _, _, -, -, -, rfl⟩ := startEmbed_ok.1 h; rfl
  have ho : ∀ {m}, startOGB a l m = .ok net → net.net = m := by
    intro m h; obtain ⟨-, _, -, rfl⟩ := startOGB_ok.1 h; rfl
  cases kind <;> simp only [startNet] at h
  case sparse => rw [hp h]; exact h
  case pp => rw [hp h]; exact h
  all_goals first
    | (have := hp h; rw [this] at hn; simp at hn; done)
    | (have := he h; rw [this] at hn; simp at hn; done)
    | (have := hb h; rw [this] at hn; simp at hn; done)
    | (have := ho h; rw [this] at hn; simp at hn; done)
    | cases h

end Verif
