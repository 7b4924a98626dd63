import Verif.Spec.GINTrain
import Verif.Lemmas.RingNets
import Verif.Lemmas.TrainMode

/-!
# Lemmas for the graph baselines in training mode
-/

namespace Verif

variable {𝕜 R : Type} [Field 𝕜] [AddCommMonoid R] [Module 𝕜 R]

theorem ginSums_one (eps : 𝕜) (g : GData R) : ginSums eps [g] = (List.range g.x.length).map fun c =>
    ((g.edges.filter fun p => p.2 == c).map fun p => rowOf g.x p.1).sum + (1 + eps) • rowOf g.x c := by
  simp [ginSums]

theorem ginSums_length (eps : 𝕜) (gs : List (GData R)) : (ginSums eps gs).length = nodeCount gs := by
  simp [ginSums, nodeCount, List.length_flatMap]

theorem ginTrain_forward (l : GINTrain 𝕜 R) {g : GData R}
    (he : ∀ e ∈ g.edges, e.1 < g.x.length ∧ e.2 < g.x.length) :
    l.forward g.x g.edges = if (l.nn.isBatch && g.x.length == 1) = true then .error .value
      else .ok (g.after (l.freeze [g])).x := by
  have h := gin_forward (𝕜 := 𝕜) ⟨id, l.eps⟩ he
  unfold GINLevel.forward at h
  unfold GINTrain.forward
  obtain ⟨out, h1, h⟩ := bind_eq_ok.mp h
  obtain ⟨out', h2, h⟩ := bind_eq_ok.mp h
  simp only [pure_eq_ok, ok_inj, List.map_id, id] at h
  rw [h1, ok_bind, h2, ok_bind, UpdateNet.train_eq, h]
  simp only [List.length_map, List.length_range]
  split
  · rfl
  · rw [ok_inj]
    simp only [GData.after, GINTrain.freeze, ginSums_one, List.map_map]
    rfl

theorem gBatch_sum_row {gs : List (GData R)} (h : ∀ g ∈ gs, g.Ok) (eps : 𝕜) {i : Nat} {g : GData R}
    (hi : gs[i]? = some g) {c : Nat} (hc : c < g.x.length) :
    (((gBatch gs).edges.filter fun p => p.2 == c + before (fun g => g.x.length) gs i).map
        fun p => rowOf (gBatch gs).x p.1).sum +
        (1 + eps) • rowOf (gBatch gs).x (c + before (fun g => g.x.length) gs i) =
      ((g.edges.filter fun p => p.2 == c).map fun p => rowOf g.x p.1).sum + (1 + eps) • rowOf g.x c := by
  have := gin_batch_rows (𝕜 := 𝕜) h [⟨id, eps⟩] id hi hc
  simpa [ginRows] using this

theorem ginSums_batch {gs : List (GData R)} (h : ∀ g ∈ gs, g.Ok) (eps : 𝕜) :
    ginSums eps [gBatch gs] = ginSums eps gs := by
  rw [ginSums_one]
  exact gBatch_split fun i g hi c hc => gBatch_sum_row h eps hi hc

theorem gEdgesFrom_after (l : GINLevel 𝕜 R) (gs : List (GData R)) (off : Nat) :
    gEdgesFrom off (gs.map (GData.after l)) = gEdgesFrom off gs := by
  induction gs generalizing off with
  | nil => rfl
  | cons g gs ih =>
    simp only [List.map_cons, gEdgesFrom, ih]
    simp [GData.after]

theorem gBatch_after (l : GINLevel 𝕜 R) {gs : List (GData R)} (h : ∀ g ∈ gs, g.Ok) :
    gBatch (gs.map (GData.after l)) = (gBatch gs).after l := by
  have hx : (gs.map (GData.after l)).flatMap GData.x = ((gBatch gs).after l).x := by
    rw [List.flatMap_map, eq_comm]
    exact gBatch_split fun i g hi c hc => congrArg l.nn (gBatch_sum_row h l.eps hi hc)
  have he := gEdgesFrom_after l gs 0
  have hm : (gs.map (GData.after l)).flatMap GData.mask = gs.flatMap GData.mask := by
    rw [List.flatMap_map]
    rfl
  have hb : ((gs.map (GData.after l)).zipIdx.flatMap fun gi => List.replicate gi.1.x.length gi.2) =
      gs.zipIdx.flatMap fun gi => List.replicate gi.1.x.length gi.2 := by
    rw [List.zipIdx_map, List.flatMap_map]
    apply List.flatMap_congr
    intro gi _
    simp [GData.after]
  unfold gBatch at hx ⊢
  rw [hx, he, hm, hb]
  rfl

theorem GData.Ok.after {g : GData R} (h : g.Ok) (l : GINLevel 𝕜 R) : (g.after l).Ok := by
  refine ⟨by simpa [GData.after] using h.edges, ?_⟩
  have := h.nodes
  simpa [GData.after] using this

theorem nodeCount_after (l : GINLevel 𝕜 R) (gs : List (GData R)) :
    nodeCount (gs.map (GData.after l)) = nodeCount gs := by
  unfold nodeCount
  rw [List.map_map]
  congr 1
  apply List.map_congr_left
  intro g _
  simp [GData.after]

open Classical in
/-- The layers in training mode. -/
theorem runGINTrain_eq {ls : List (GINTrain 𝕜 R)} {gs : List (GData R)} (h : ∀ g ∈ gs, g.Ok) :
    runGINTrain (gBatch gs).edges (gBatch gs).x ls =
      if (∃ l ∈ ls, l.nn.isBatch = true) ∧ nodeCount gs = 1 then .error .value
      else runGIN (gBatch gs).edges (gBatch gs).x (freezeGIN gs ls) := by
  induction ls generalizing gs with
  | nil => simp [runGINTrain, freezeGIN, runGIN]
  | cons l ls ih =>
    have hn : (gBatch gs).x.length = nodeCount gs := gBatch_size gs
    have hfr : l.freeze [gBatch gs] = l.freeze gs := by
      unfold GINTrain.freeze
      rw [ginSums_batch h]
    have hf := gin_forward (l.freeze gs) (gBatch_edges h)
    unfold runGINTrain
    rw [ginTrain_forward l (gBatch_edges h), hn, hfr]
    by_cases h1 : (l.nn.isBatch && nodeCount gs == 1) = true
    · rw [if_pos h1]
      simp only [Bool.and_eq_true, beq_iff_eq] at h1
      rw [if_pos ⟨⟨l, by simp, h1.1⟩, h1.2⟩]
      rfl
    · rw [if_neg h1, ok_bind]
      have hb := gBatch_after (l.freeze gs) h
      have he : ((gBatch gs).after (l.freeze gs)).edges = (gBatch gs).edges := rfl
      have := ih (gs := gs.map (GData.after (l.freeze gs))) (by
        rw [List.forall_mem_map]
        exact fun g hg => (h g hg).after _)
      rw [hb, he, nodeCount_after] at this
      rw [this]
      by_cases h2 : (∃ l ∈ ls, l.nn.isBatch = true) ∧ nodeCount gs = 1
      · obtain ⟨⟨l', hl', hb'⟩, h3⟩ := h2
        rw [if_pos ⟨⟨l', hl', hb'⟩, h3⟩, if_pos ⟨⟨l', by simp [hl'], hb'⟩, h3⟩]
        rfl
      · rw [if_neg h2, if_neg]
        · simp only [freezeGIN, runGIN]
          rw [hf]
          rfl
        · rintro ⟨⟨l', hl', hb'⟩, h3⟩
          rcases List.mem_cons.mp hl' with rfl | hl'
          · exact h1 (by simp [hb', h3])
          · exact h2 ⟨⟨l', hl', hb'⟩, h3⟩

theorem GINTrainNet.forward_train (net : GINTrainNet 𝕜 R) {gs : List (GData R)} (h : ∀ g ∈ gs, g.Ok) :
    (net.usesBatch ∧ nodeCount gs = 1 → net.forward (gBatch gs) = .error .value) ∧
    (¬ (net.usesBatch ∧ nodeCount gs = 1) → net.forward (gBatch gs) = (net.frozen gs).forward (gBatch gs)) := by
  unfold GINTrainNet.forward GINTrainNet.usesBatch
  rw [runGINTrain_eq h]
  constructor
  · intro h1
    rw [if_pos h1]
    rfl
  · intro h1
    rw [if_neg h1]
    rfl

/-! ### RingGIN -/

/-- A layer followed by a function of each row. -/
def GINTrain.andThen (l : GINTrain 𝕜 R) (f : R → R) : GINTrain 𝕜 R :=
  { l with nn := { l.nn with act2 := fun x => f (l.nn.act2 x) } }

theorem andThen_forward (l : GINTrain 𝕜 R) (f : R → R) (x : List R) (edges : List (Nat × Nat)) :
    (l.andThen f).forward x edges = (l.forward x edges >>= fun y => .ok (y.map f)) := by
  unfold GINTrain.forward GINTrain.andThen
  dsimp only
  cases messageAndAggregate (A := R) (.plain id) aggAdd .sourceToTarget x.length x edges (some none) with
  | error e => rfl
  | ok out =>
    simp only [ok_bind]
    cases addScaled l.eps out x with
    | error e => rfl
    | ok out =>
      simp only [ok_bind]
      unfold UpdateNet.train
      dsimp only
      cases l.nn.norm1.train 𝕜 (out.map l.nn.lin1) with
      | error e => rfl
      | ok a =>
        simp only [ok_bind]
        cases l.nn.norm2.train 𝕜 ((a.map l.nn.act1).map l.nn.lin2) with
        | error e => rfl
        | ok b =>
          simp only [ok_bind, pure_eq_ok, List.map_map]
          rfl

theorem andThen_freeze (l : GINTrain 𝕜 R) (f : R → R) (gs : List (GData R)) :
    (l.andThen f).freeze gs = { l.freeze gs with nn := fun x => f ((l.freeze gs).nn x) } := rfl

theorem gEdgesFrom_map (f : R → R) (gs : List (GData R)) (off : Nat) :
    gEdgesFrom off (gs.map fun g => { g with x := g.x.map f }) = gEdgesFrom off gs := by
  induction gs generalizing off with
  | nil => rfl
  | cons g gs ih =>
    simp only [List.map_cons, gEdgesFrom, ih]
    simp

theorem gBatch_map_rows (f : R → R) (gs : List (GData R)) :
    gBatch (gs.map fun g => { g with x := g.x.map f }) = { gBatch gs with x := (gBatch gs).x.map f } := by
  have hx : (gs.map fun g => { g with x := g.x.map f }).flatMap GData.x = (gs.flatMap GData.x).map f := by
    rw [List.flatMap_map, List.map_flatMap]
  have he := gEdgesFrom_map f gs 0
  have hm : (gs.map fun g => { g with x := g.x.map f }).flatMap GData.mask = gs.flatMap GData.mask := by
    rw [List.flatMap_map]
  have hb : ((gs.map fun g => { g with x := g.x.map f }).zipIdx.flatMap
        fun gi => List.replicate gi.1.x.length gi.2) =
      gs.zipIdx.flatMap fun gi => List.replicate gi.1.x.length gi.2 := by
    rw [List.zipIdx_map, List.flatMap_map]
    apply List.flatMap_congr
    intro gi _
    simp
  unfold gBatch
  rw [hx, he, hm, hb]

theorem GINLevel.andThen_forward (l : GINLevel 𝕜 R) (f : R → R) (x : List R) (edges : List (Nat × Nat)) :
    GINLevel.forward { l with nn := fun x => f (l.nn x) } x edges =
      (l.forward x edges >>= fun y => .ok (y.map f)) := by
  unfold GINLevel.forward
  dsimp only
  cases messageAndAggregate (A := R) (.plain id) aggAdd .sourceToTarget x.length x edges (some none) with
  | error e => rfl
  | ok out =>
    simp only [ok_bind]
    cases addScaled l.eps out x with
    | error e => rfl
    | ok out => simp only [ok_bind, pure_eq_ok, List.map_map]; rfl

theorem runGIN_cons (edges : List (Nat × Nat)) (x : List R) (l : GINLevel 𝕜 R) (ls : List (GINLevel 𝕜 R)) :
    runGIN edges x (l :: ls) =
      (l.forward x edges >>= fun y => runGIN edges y ls >>= fun rest => .ok (y :: rest)) := rfl

theorem runGINTrain_cons (edges : List (Nat × Nat)) (x : List R) (l : GINTrain 𝕜 R) (ls : List (GINTrain 𝕜 R)) :
    runGINTrain edges x (l :: ls) =
      (l.forward x edges >>= fun y => runGINTrain edges y ls >>= fun rest => .ok (y :: rest)) := rfl

/-- The rest of a RingGIN. -/
def ringTail (lin1 : R → R) (mask : List Bool) (outs : List (List R)) : Py (List R) := do
  let x ← maskRows (outs.getLast?.getD []) (some mask)
  return x.map lin1

theorem RingGIN.forward_levels (net : RingGIN 𝕜 R) (g : GData R) :
    net.forward g = (runGIN g.edges (g.x.map net.initLinear) net.levels >>= ringTail net.lin1 g.mask) := by
  unfold RingGIN.forward RingGIN.levels
  rw [runGIN_cons, GINLevel.andThen_forward]
  cases net.conv1.forward (g.x.map net.initLinear) g.edges with
  | error e => rfl
  | ok y =>
    simp only [ok_bind]
    cases runGIN g.edges (y.map net.act) net.convs with
    | error e => rfl
    | ok outs =>
      simp only [ok_bind, pure_eq_ok, ringTail, List.getLast?_cons, Option.getD_some]

theorem RingGINTrain.forward_levels (net : RingGINTrain 𝕜 R) (g : GData R) :
    net.forward g = (runGINTrain g.edges (g.x.map net.initLinear) (net.conv1.andThen net.act :: net.convs) >>=
      ringTail net.lin1 g.mask) := by
  unfold RingGINTrain.forward
  rw [runGINTrain_cons, Verif.andThen_forward]
  cases net.conv1.forward (g.x.map net.initLinear) g.edges with
  | error e => rfl
  | ok y =>
    simp only [ok_bind]
    cases runGINTrain g.edges (y.map net.act) net.convs with
    | error e => rfl
    | ok outs =>
      simp only [ok_bind, pure_eq_ok, ringTail, List.getLast?_cons, Option.getD_some]

theorem RingGINTrain.forward_train (net : RingGINTrain 𝕜 R) {gs : List (GData R)} (h : ∀ g ∈ gs, g.Ok) :
    (net.usesBatch ∧ nodeCount gs = 1 → net.forward (gBatch gs) = .error .value) ∧
    (¬ (net.usesBatch ∧ nodeCount gs = 1) → net.forward (gBatch gs) = (net.frozen gs).forward (gBatch gs)) := by
  have hok : ∀ g ∈ gs.map fun g => ({ g with x := g.x.map net.initLinear } : GData R), g.Ok := by
    rw [List.forall_mem_map]
    intro g hg
    refine ⟨by simpa using (h g hg).edges, ?_⟩
    simpa using (h g hg).nodes
  have hc : nodeCount (gs.map fun g => ({ g with x := g.x.map net.initLinear } : GData R)) = nodeCount gs := by
    simp [nodeCount, Function.comp_def]
  have hu : (∃ l ∈ net.conv1.andThen net.act :: net.convs, l.nn.isBatch = true) ↔ net.usesBatch := by
    simp only [RingGINTrain.usesBatch, List.mem_cons, exists_eq_or_imp]
    rfl
  have hr := runGINTrain_eq (ls := net.conv1.andThen net.act :: net.convs) hok
  rw [gBatch_map_rows, hc] at hr
  rw [RingGINTrain.forward_levels]
  constructor
  · intro h1
    rw [if_pos (by rw [hu]; exact h1)] at hr
    exact (congrArg (· >>= ringTail net.lin1 (gBatch gs).mask) hr).trans rfl
  · intro h1
    rw [if_neg (by rw [hu]; exact h1)] at hr
    rw [RingGIN.forward_levels]
    exact congrArg (· >>= ringTail net.lin1 (gBatch gs).mask) hr

/-! ### Colours -/

theorem sameNode_le {g h : GData R} {n k c e : Nat} (hk : k ≤ n) (hs : SameNode g h n c e) :
    SameNode g h k c e := by
  induction n with
  | zero => rw [Nat.le_zero.mp hk]; exact hs
  | succ n ih =>
    by_cases hkn : k = n + 1
    · rw [hkn]; exact hs
    · exact ih (by omega) hs.1

theorem SameNode.lt {g h : GData R} {n c e : Nat} (hs : SameNode g h n c e) : c < g.x.length ∧ e < h.x.length := by
  obtain ⟨x, h1, h2⟩ := sameNode_le (Nat.zero_le n) hs
  exact ⟨(List.getElem?_eq_some_iff.mp h1).1, (List.getElem?_eq_some_iff.mp h2).1⟩

theorem SameNode.sum {g h : GData R} {c e : Nat} (hs : SameNode g h 1 c e) (eps : 𝕜) :
    ((g.edges.filter fun p => p.2 == c).map fun p => rowOf g.x p.1).sum + (1 + eps) • rowOf g.x c =
      ((h.edges.filter fun p => p.2 == e).map fun p => rowOf h.x p.1).sum + (1 + eps) • rowOf h.x e := by
  have hrow : ∀ {c e}, SameNode g h 0 c e → rowOf g.x c = rowOf h.x e := by
    rintro c e ⟨x, h1, h2⟩
    unfold rowOf
    rw [h1, h2]
  rw [hrow hs.1, (hs.2.map_perm fun p _ q _ hpq => hrow hpq).sum_eq]

theorem SameNode.after {g h : GData R} (l : GINLevel 𝕜 R) {n c e : Nat} (hs : SameNode g h (n + 1) c e) :
    SameNode (g.after l) (h.after l) n c e := by
  induction n generalizing c e with
  | zero =>
    obtain ⟨hc, he⟩ := hs.lt
    refine ⟨l.nn (((g.edges.filter fun p => p.2 == c).map fun p => rowOf g.x p.1).sum +
      (1 + l.eps) • rowOf g.x c), ?_, ?_⟩
    · simp [GData.after, List.getElem?_range hc]
    · simp only [GData.after, List.getElem?_map, List.getElem?_range he, Option.map_some, Option.some.injEq]
      rw [hs.sum]
  | succ n ih => exact ⟨ih hs.1, hs.2.mono fun p _ q _ hpq => ih hpq⟩

theorem SameNodes.after {g h : GData R} (l : GINLevel 𝕜 R) {n : Nat} (hs : SameNodes g h (n + 1)) :
    SameNodes (g.after l) (h.after l) n := by
  unfold SameNodes
  simp only [GData.after, List.length_map, List.length_range]
  exact Matched.mono hs fun c _ e _ hce => hce.after l

theorem SameNodes.size {g h : GData R} {n : Nat} (hs : SameNodes g h n) : g.x.length = h.x.length := by
  obtain ⟨m, hp, hf⟩ := hs
  have := hf.length_eq
  rw [hp.length_eq] at this
  simpa using this

theorem ginSums_colours {gs hs : List (GData R)} {n : Nat} (h : List.Forall₂ (fun g h => SameNodes g h (n + 1)) gs hs)
    (eps : 𝕜) : (ginSums eps gs).Perm (ginSums eps hs) := by
  induction h with
  | nil => exact .refl _
  | cons h _ ih =>
    simp only [ginSums, List.flatMap_cons] at ih ⊢
    exact (h.map_perm fun c _ e _ hce => (sameNode_le (by omega) hce).sum eps).append ih

theorem nodeCount_colours {gs hs : List (GData R)} {n : Nat} (h : List.Forall₂ (fun g h => SameNodes g h n) gs hs) :
    nodeCount gs = nodeCount hs := by
  unfold nodeCount
  congr 1
  induction h with
  | nil => rfl
  | cons h _ ih => rw [List.map_cons, List.map_cons, ih, h.size]

theorem GINTrain.freeze_perm (l : GINTrain 𝕜 R) {gs hs : List (GData R)}
    (h : (ginSums l.eps gs).Perm (ginSums l.eps hs)) : l.freeze gs = l.freeze hs := by
  unfold GINTrain.freeze
  rw [UpdateNet.freeze_perm _ h]

theorem freezeGIN_colours {ls : List (GINTrain 𝕜 R)} {n : Nat} (hn : ls.length ≤ n) {gs hs : List (GData R)}
    (h : List.Forall₂ (fun g h => SameNodes g h n) gs hs) : freezeGIN gs ls = freezeGIN hs ls := by
  induction ls generalizing n gs hs with
  | nil => rfl
  | cons l ls ih =>
    cases n with
    | zero => simp at hn
    | succ n =>
      simp only [List.length_cons, Nat.add_le_add_iff_right] at hn
      have e : l.freeze gs = l.freeze hs := l.freeze_perm (ginSums_colours h l.eps)
      simp only [freezeGIN, e]
      congr 1
      apply ih hn
      rw [List.forall₂_map_left_iff, List.forall₂_map_right_iff]
      exact h.imp fun g h hgh => hgh.after _

theorem freezeGIN_perm {ls : List (GINTrain 𝕜 R)} {gs hs : List (GData R)} (h : gs.Perm hs) :
    freezeGIN gs ls = freezeGIN hs ls := by
  induction ls generalizing gs hs with
  | nil => rfl
  | cons l ls ih =>
    have e : l.freeze gs = l.freeze hs := l.freeze_perm (h.flatMap_right _)
    simp only [freezeGIN, e]
    congr 1
    exact ih (h.map _)

theorem GINTrainNet.frozen_eq {net : GINTrainNet 𝕜 R} {gs hs : List (GData R)}
    (h : freezeGIN gs (net.conv1 :: net.convs) = freezeGIN hs (net.conv1 :: net.convs)) :
    net.frozen gs = net.frozen hs := by
  simp only [freezeGIN, List.cons.injEq] at h
  unfold GINTrainNet.frozen
  rw [h.2, h.1]

end Verif
