import Verif.Spec.Baselines
import Verif.Props.Models
import Verif.Lemmas.CellNetLift

/-!
# Lemmas on the baselines on complexes
-/

namespace Verif

variable {𝕜 R L : Type} [Field 𝕜] [AddCommMonoid R] [Module 𝕜 R]

/-- A batch, its number of complexes with the last one that has a vertex. -/
theorem AgnosticNet.forward_batch {net : AgnosticNet R} (hn : net.Fits)
    {front rest : List (Complex R L)} {last B : Complex R L} {mB : Nat}
    (hB : fromComplexList (front ++ last :: rest) mB = .ok B)
    (hr : ∀ comp ∈ front ++ last :: rest, comp.Ready)
    (hlast : 0 < last.cellsIn 0) (hrest : ∀ c ∈ rest, ∀ d, c.cellsIn d = 0) :
    net.forward 𝕜 B = .ok ((front ++ [last]).map fun c => net.predict 𝕜 (c.view.upTo mB).X) := by
  have h := batch_runs hB hr
  have hle := (batch_dim_le hB).1
  have hmem : ∀ c ∈ front ++ [last], c ∈ front ++ last :: rest := by
    intro c hc
    simp only [List.mem_append, List.mem_cons, List.not_mem_nil, or_false] at hc ⊢
    rcases hc with hc | hc
    · exact .inl hc
    · exact .inr (.inl hc)
  have hp : ∀ d ∈ List.range (min net.maxDim B.dimension + 1), ∃ p,
      B.getCochainParams d net.maxDim true false = .ok p ∧ p.x = some (B.view.X d) := by
    intro d hd
    have := List.mem_range.mp hd
    obtain ⟨p, h1, h2⟩ := h.params (show d ≤ B.dimension by omega) net.maxDim true false
    exact ⟨p, h1, h2.x⟩
  have : Nonempty (MPParams R) := ⟨{ x := none }⟩
  choose! g hg using hp
  have hps : B.getAllCochainParams net.maxDim true false =
      .ok ((List.range (min net.maxDim B.dimension + 1)).map g) := mapE_ok fun d hd => (hg d hd).1
  unfold AgnosticNet.forward
  rw [hps, ok_bind]
  have hz : ((List.range (min net.maxDim B.dimension + 1)).map g).zipIdx =
      (List.range (min net.maxDim B.dimension + 1)).map fun d => (g d, d) := by
    apply List.ext_getElem?
    intro i
    rw [List.getElem?_zipIdx, List.getElem?_map, List.getElem?_map]
    by_cases hi : i < min net.maxDim B.dimension + 1
    · rw [List.getElem?_range hi]; simp
    · rw [List.getElem?_eq_none (by rw [List.length_range]; omega)]
      rfl
  obtain ⟨pool, hpool, hagg⟩ := getPoolingFn_ok (𝕜 := 𝕜) (R := R) hn.readout
  rw [hz, mapE_map, mapE_ok (g := fun d => (front ++ last :: rest).flatMap fun c =>
    if d ≤ min net.maxDim B.dimension then ((c.view.upTo mB).X d).map (net.first d) else []), ok_bind, hpool, ok_bind,
    poolComplex_ok (front := front) (last := last) (rest := rest)
    (X := fun c d => if d ≤ min net.maxDim B.dimension then ((c.view.upTo mB).X d).map (net.first d) else []), ok_bind,
    List.map_map]
  · have hst := stackReduce_ok (𝕜 := 𝕜) (final := "sum") (l := List.range (net.maxDim + 1)) (by simp) (.inl rfl)
      (cs := front ++ [last]) (g := fun d c => net.act (net.lin1 (pool.agg 𝕜
        (if d ≤ min net.maxDim B.dimension then ((c.view.upTo mB).X d).map (net.first d) else []))))
    have he : (List.range (net.maxDim + 1)).map ((fun l => l.map fun r => net.act (net.lin1 r)) ∘ fun d =>
        (front ++ [last]).map fun c => pool.agg 𝕜
          (if d ≤ min net.maxDim B.dimension then ((c.view.upTo mB).X d).map (net.first d) else [])) =
        (List.range (net.maxDim + 1)).map fun d => (front ++ [last]).map fun c => net.act (net.lin1 (pool.agg 𝕜
        (if d ≤ min net.maxDim B.dimension then ((c.view.upTo mB).X d).map (net.first d) else []))) := by
      apply List.map_congr_left
      intro d _
      simp
    rw [he, hst, ok_bind]
    simp only [pure_eq_ok, ok_inj, List.map_map]
    apply List.map_congr_left
    intro c hc
    simp only [Function.comp, AgnosticNet.predict, hagg]
    refine congrArg net.lin2 ?_
    simp only [poolOf, show ¬ ("sum" = "mean") by decide, if_false]
    congr 1
    apply List.map_congr_left
    intro d hd
    have hdm : d ≤ net.maxDim := by have := List.mem_range.mp hd; omega
    by_cases hdB : d ≤ B.dimension
    · rw [if_pos (show d ≤ min net.maxDim B.dimension by omega)]
    · rw [if_neg (show ¬ d ≤ min net.maxDim B.dimension by omega),
        upTo_X_nil_of_gt hB (hr c (hmem c hc)) (hmem c hc) (by omega)]
      rfl
  · intro d hd
    rw [batch_vec hB hr (by omega)]
  · exact hlast
  · intro c hc d _; exact hrest c hc d
  · omega
  · omega
  · intro c hc d hd
    rw [if_pos (by omega), List.length_map, upTo_X_length (hr c hc) (by omega)]
  · intro c _ d hd
    rw [if_neg (by omega)]
  · intro d hd
    have hlt := List.mem_range.mp hd
    have hlin : d < net.lin0s.length := by rw [hn.lin0s]; omega
    simp only [listGet, List.getElem?_eq_getElem hlin, ok_bind, (hg d hd).2, pure_eq_ok, ok_inj]
    rw [batch_X hB hr (show d ≤ mB by omega), List.map_flatMap]
    simp only [if_pos (show d ≤ min net.maxDim B.dimension by omega), View.upTo, if_pos (show d ≤ mB by omega)]
    congr 1
    funext c
    apply List.map_congr_left
    intro r _
    simp [AgnosticNet.first, List.getElem?_eq_getElem hlin]

theorem AgnosticNet.forward_all {net : AgnosticNet R} (hn : net.Fits) {cs : List (Complex R L)} (hne : cs ≠ [])
    (hr : ∀ c ∈ cs, c.Ready) (h0 : ∀ c ∈ cs, 0 < c.cellsIn 0) (mB : Nat) :
    (fromComplexList cs mB >>= net.forward 𝕜) = .ok (cs.map fun c => net.predict 𝕜 (c.view.upTo mB).X) := by
  obtain ⟨B, hB⟩ := batch_exists hne hr mB
  obtain ⟨front, last, rfl⟩ := split_last hne
  rw [hB, ok_bind]
  exact AgnosticNet.forward_batch (rest := []) hn hB hr (h0 last (by simp)) (by simp)

theorem AgnosticNet.predict_eq {net : AgnosticNet R} {v : View R} {down : Bool} {cells : Nat → List (Finset Nat)}
    {h : Nat → Finset Nat → R} (hv : Shows v down cells h) :
    net.predict 𝕜 v.X = net.predictOn 𝕜 (setsOf cells) h := by
  unfold AgnosticNet.predict AgnosticNet.predictOn
  refine congrArg net.lin2 (congrArg List.sum (List.map_congr_left fun d _ => ?_))
  rw [hv.X, List.map_map, poolOf_eq (hv.nodup d)]
  rfl

/-! ### `Dummy` -/

/-- The network as one of `CIN0`. -/
def DummyNet.asCIN (net : DummyNet R) : CINNet R DummyLevel where
  convs := List.replicate net.layers (List.replicate 3 {})
  maxDim := 2
  readout := net.readout
  act := id
  lin1 := id
  lin2 := net.lin

omit [Field 𝕜] [AddCommMonoid R] [Module 𝕜 R] in
theorem convLoop_uniform {Lv : Type} {forward : Lv → MPParams R → Py (List R)} {l : Lv} {n m : Nat}
    {ps : List (MPParams R)} (hn : ps.length ≤ n) (hm : ps.length ≤ m) :
    convLoop forward (List.replicate n l) ps = convLoop forward (List.replicate m l) ps := by
  induction ps generalizing n m with
  | nil => cases n <;> cases m <;> rfl
  | cons p ps ih =>
    obtain ⟨n, rfl⟩ : ∃ k, n = k + 1 := ⟨n - 1, by simp at hn; omega⟩
    obtain ⟨m, rfl⟩ : ∃ k, m = k + 1 := ⟨m - 1, by simp at hm; omega⟩
    rw [List.replicate_succ, List.replicate_succ]
    unfold convLoop
    rw [ih (by simpa using hn) (by simpa using hm)]

omit [Field 𝕜] [Module 𝕜 R] in
/-- Levels that are all the same: only the number of those that are used matters. -/
theorem runConvs_uniform {Lv : Type} {forward : Lv → MPParams R → Py (List R)} {rule : Lv → Rule R}
    {needs : Lv → Prop} {top down : Bool} (hreal : Realises forward rule needs down) {m : Nat} {l : Lv}
    (hl : FitLevels needs m top (List.replicate (m + 1) l)) {comp : Complex R L} (h : comp.Runs) {n : Nat}
    (hn : min m comp.dimension ≤ n) (k : Nat) :
    runConvs (fun data => data.getAllCochainParams m top down) (convForward forward) comp
        (List.replicate k (List.replicate (n + 1) l)) =
      runConvs (fun data => data.getAllCochainParams m top down) (convForward forward) comp
        (List.replicate k (List.replicate (m + 1) l)) := by
  induction k generalizing comp with
  | zero => rfl
  | succ k ih =>
    have hc := h.conv hreal hl
    obtain ⟨ps, hps, hc⟩ := bind_eq_ok.mp hc
    have hlen := (C11_all_params comp m top down true ps hps).1
    have hw := h.withX (rulesOf rule (List.replicate (m + 1) l)) m top
    have same : convForward forward (List.replicate (n + 1) l) ps = convForward forward (List.replicate (m + 1) l) ps := by
      unfold convForward
      rw [List.length_replicate, List.length_replicate, decide_eq_true (show ps.length ≤ n + 1 by omega),
        decide_eq_true (show ps.length ≤ m + 1 by omega)]
      simp only [pyAssert_true, ok_bind]
      exact convLoop_uniform (by omega) (by omega)
    rw [show List.replicate (k + 1) (List.replicate (n + 1) l) = List.replicate (n + 1) l ::
        List.replicate k (List.replicate (n + 1) l) from rfl,
      show List.replicate (k + 1) (List.replicate (m + 1) l) = List.replicate (m + 1) l ::
        List.replicate k (List.replicate (m + 1) l) from rfl]
    unfold runConvs
    rw [hps, ok_bind, ok_bind, same, hc, ok_bind, ok_bind, h.write (rulesOf rule _) m top, ok_bind, ok_bind,
      ih hw.1 hn]

theorem DummyNet.forward_batch {net : DummyNet R} (hl : 1 ≤ net.layers) (hro : net.readout = "sum" ∨ net.readout = "mean")
    {front rest : List (Complex R L)} {last B : Complex R L} {mB : Nat}
    (hB : fromComplexList (front ++ last :: rest) mB = .ok B)
    (hr : ∀ comp ∈ front ++ last :: rest, comp.Ready)
    (hlast : 0 < last.cellsIn 0) (hrest : ∀ c ∈ rest, ∀ d, c.cellsIn d = 0) (hdim : min 2 B.dimension ≤ net.maxDim) :
    net.forward 𝕜 B = .ok ((front ++ [last]).map fun c => net.asCIN.predict 𝕜 DummyLevel.rule (c.view.upTo mB)) := by
  have hruns := batch_runs hB hr
  have hfit : FitLevels (fun _ : DummyLevel => True) 2 true (List.replicate (2 + 1) {}) := ⟨rfl, fun _ _ _ _ => by simp⟩
  obtain ⟨data, h1, -, -, h4⟩ := runConvs_ok (top := true) realises_dummy (m := 2) (convs := net.asCIN.convs)
    (fun conv hc => by rw [List.eq_of_mem_replicate hc]; exact hfit) hruns
  unfold DummyNet.forward
  rw [runConvs_uniform realises_dummy hfit hruns hdim net.layers]
  have h1' : runConvs (fun data => data.getAllCochainParams 2 true true) (convForward DummyLevel.forward) B
    (List.replicate net.layers (List.replicate (2 + 1) {})) = _ := h1
  rw [h1', ok_bind]
  have hne : B.view.run 2 true (net.asCIN.convs.map (rulesOf DummyLevel.rule)) ≠ [] :=
    run_ne (by simp [DummyNet.asCIN]; omega) _ _
  have hle := (batch_dim_le hB).1
  have hfin := finalRows_ok hne B.view (fun w hw d => run_X_length _ _ _ _ hw d) none (min 2 B.dimension + 1)
  generalize hXdef : (fun (c : Complex R L) => (c.view.upTo mB).final none
    ((c.view.upTo mB).run 2 true (net.asCIN.convs.map (rulesOf DummyLevel.rule)))) = X
  have hXapp : ∀ c, X c = (c.view.upTo mB).final none
    ((c.view.upTo mB).run 2 true (net.asCIN.convs.map (rulesOf DummyLevel.rule))) := by
    intro c; rw [← hXdef]
  have hmem : ∀ c ∈ front ++ [last], c ∈ front ++ last :: rest := by
    intro c hc
    simp only [List.mem_append, List.mem_cons, List.not_mem_nil, or_false] at hc ⊢
    rcases hc with hc | hc
    · exact .inl hc
    · exact .inr (.inl hc)
  have hfin2 : (List.range (min 2 B.dimension + 1)).map (B.view.final none
        (B.view.run 2 true (net.asCIN.convs.map (rulesOf DummyLevel.rule)))) =
      (List.range (min 2 B.dimension + 1)).map fun d =>
        (front ++ last :: rest).flatMap fun c => if d ≤ min 2 B.dimension then X c d else [] := by
    apply List.map_congr_left
    intro d hd
    have := List.mem_range.mp hd
    simp only [if_pos (show d ≤ min 2 B.dimension by omega), hXapp]
    exact batch_final hB hr _ _ _ _ (by omega)
  obtain ⟨pool, hpool, hagg⟩ := getPoolingFn_ok (𝕜 := 𝕜) (R := R) hro
  dsimp only
  rw [hfin, ok_bind, hpool, ok_bind, hfin2, poolComplex_ok (front := front) (last := last)
    (rest := rest) (X := fun c d => if d ≤ min 2 B.dimension then X c d else []), ok_bind,
    stackReduce_ok (by simp) (.inl rfl), ok_bind]
  · simp only [pure_eq_ok, ok_inj, List.map_map]
    apply List.map_congr_left
    intro c hc
    have hnil : ∀ d, 2 < d ∨ B.dimension < d → pool.agg 𝕜 (if d ≤ min 2 B.dimension then X c d else []) = 0 := by
      intro d hd
      rw [if_neg (by omega), hagg, poolOf_nil]
    simp only [Function.comp, CINNet.predict]
    show net.lin _ = net.lin _
    refine congrArg net.lin ?_
    simp only [poolOf, show ¬ ("sum" = "mean") by decide, if_false]
    show _ = ((List.range 3).map fun d => poolOf 𝕜 net.readout ((c.view.upTo mB).final none
      ((c.view.upTo mB).run 2 true (net.asCIN.convs.map (rulesOf DummyLevel.rule))) d)).sum
    have hrange : ∀ a b : Nat, min 2 B.dimension + 1 ≤ a → a ≤ b → ((List.range b).map fun d =>
        pool.agg 𝕜 (if d ≤ min 2 B.dimension then X c d else [])).sum = ((List.range a).map fun d =>
        pool.agg 𝕜 (if d ≤ min 2 B.dimension then X c d else [])).sum := by
      intro a b ha hab
      obtain ⟨k, rfl⟩ := Nat.exists_eq_add_of_le hab
      rw [List.range_add, List.map_append, List.sum_append, List.map_map]
      have : ((List.range k).map ((fun d => pool.agg 𝕜 (if d ≤ min 2 B.dimension then X c d else [])) ∘ (a + ·))).sum
          = 0 := by
        apply List.sum_eq_zero
        intro r hr'
        obtain ⟨i, -, rfl⟩ := List.mem_map.mp hr'
        exact hnil (a + i) (by omega)
      rw [this, add_zero]
    rw [hrange (min 2 B.dimension + 1) (net.maxDim + 1) (Nat.le_refl _) (by omega),
      ← hrange (min 2 B.dimension + 1) 3 (Nat.le_refl _) (by omega)]
    congr 1
    apply List.map_congr_left
    intro d hd
    have hdm : d ≤ 2 := by have := List.mem_range.mp hd; omega
    rw [hagg]
    by_cases hdB : d ≤ B.dimension
    · rw [if_pos (show d ≤ min 2 B.dimension by omega), hXapp]
    · rw [if_neg (show ¬ d ≤ min 2 B.dimension by omega),
        final_nil (upTo_X_nil_of_gt hB (hr c (hmem c hc)) (hmem c hc) (by omega))]
  · intro d hd
    rw [h4, batch_vec hB hr (by omega)]
  · exact hlast
  · intro c hc d _; exact hrest c hc d
  · omega
  · omega
  · intro c hc d hd
    rw [if_pos (by omega), hXapp, final_length, upTo_X_length (hr c hc) (by omega)]
  · intro c _ d hd
    rw [if_neg (by omega)]

omit [AddCommMonoid R] in
/-- The dimension of a batch. -/
theorem batch_dim_min {cs : List (Complex R L)} {mB : Nat} {B : Complex R L} (hB : fromComplexList cs mB = .ok B) (k n : Nat) :
    min k B.dimension ≤ n ↔ ∀ c ∈ cs, min k (min c.dimension mB) ≤ n := by
  constructor
  · intro h c hc
    have := batch_dim_ge hB hc
    omega
  · intro h
    obtain ⟨h1, c, hc, h2⟩ := batch_dim_le hB
    have := h c hc
    omega

theorem DummyNet.forward_all {net : DummyNet R} (hl : 1 ≤ net.layers) (hro : net.readout = "sum" ∨ net.readout = "mean")
    {cs : List (Complex R L)} (hne : cs ≠ []) (hr : ∀ c ∈ cs, c.Ready) (h0 : ∀ c ∈ cs, 0 < c.cellsIn 0) (mB : Nat)
    (hdim : ∀ c ∈ cs, min 2 (min c.dimension mB) ≤ net.maxDim) :
    (fromComplexList cs mB >>= net.forward 𝕜) =
      .ok (cs.map fun c => net.asCIN.predict 𝕜 DummyLevel.rule (c.view.upTo mB)) := by
  obtain ⟨B, hB⟩ := batch_exists hne hr mB
  obtain ⟨front, last, rfl⟩ := split_last hne
  rw [hB, ok_bind]
  exact DummyNet.forward_batch (rest := []) hl hro hB hr (h0 last (by simp)) (by simp) ((batch_dim_min hB _ _).mpr hdim)

/-- Cells of a dimension that the network has no level for. -/
theorem DummyNet.forward_refuses {net : DummyNet R} (hl : 1 ≤ net.layers) {cs : List (Complex R L)} (hne : cs ≠ [])
    (hr : ∀ c ∈ cs, c.Ready) (mB : Nat) (hdim : ∃ c ∈ cs, net.maxDim < min 2 (min c.dimension mB)) :
    (fromComplexList cs mB >>= net.forward 𝕜) = .error .assertion := by
  obtain ⟨B, hB⟩ := batch_exists hne hr mB
  have hd : ¬ min 2 B.dimension ≤ net.maxDim := by
    rw [batch_dim_min hB]
    obtain ⟨c, hc, h⟩ := hdim
    intro h'
    have := h' c hc
    omega
  rw [hB, ok_bind]
  have h := batch_runs hB hr
  have hfit : FitLevels (fun _ : DummyLevel => True) 2 true (List.replicate (2 + 1) {}) := ⟨rfl, fun _ _ _ _ => by simp⟩
  obtain ⟨ps, hps, -⟩ := bind_eq_ok.mp (h.conv realises_dummy hfit)
  have hlen := (C11_all_params B 2 true true true ps hps).1
  obtain ⟨k, hk⟩ : ∃ k, net.layers = k + 1 := ⟨net.layers - 1, by omega⟩
  unfold DummyNet.forward
  rw [hk, List.replicate_succ]
  unfold runConvs
  rw [hps, ok_bind]
  unfold convForward
  rw [List.length_replicate, decide_eq_false (show ¬ ps.length ≤ net.maxDim + 1 by omega)]
  rfl

omit [Field 𝕜] [Module 𝕜 R] in
/-- The layers of `Dummy` on vertex sets. -/
theorem dummy_iterate (K : Cells) (down : Bool) (n : Nat) (h : Nat → Finset Nat → R) :
    (K.run down 2 h ((List.replicate (n + 1) (List.replicate 3 ({} : DummyLevel))).map
      (rulesOf DummyLevel.rule))).getLast? = some ((K.add down)^[n + 1] h) := by
  have hstep : ∀ h : Nat → Finset Nat → R, (fun d s => if d ≤ 2 then
      K.step (rulesOf DummyLevel.rule (List.replicate 3 {}) d) down h d s else h d s) = K.add down h := by
    intro h
    funext d s
    unfold Cells.add
    split
    · next hd =>
      have hr : rulesOf (R := R) DummyLevel.rule (List.replicate 3 {}) d = DummyLevel.rule {} := by
        unfold rulesOf
        rw [List.getElem?_replicate_of_lt (by omega)]
      rw [hr]
      simp [Cells.step, DummyLevel.rule]
    · rfl
  induction n generalizing h with
  | zero =>
    simp only [Nat.zero_add, List.replicate_one, List.map_cons, List.map_nil, Cells.run, List.getLast?_singleton,
      Function.iterate_one]
    rw [← hstep]
  | succ n ih =>
    have e : List.replicate (n + 1 + 1) (List.replicate 3 ({} : DummyLevel)) = List.replicate 3 {} ::
      List.replicate (n + 1) (List.replicate 3 {}) := rfl
    rw [e, List.map_cons]
    unfold Cells.run
    have hne : K.run down 2 (fun d s => if d ≤ 2 then K.step (rulesOf DummyLevel.rule (List.replicate 3 {}) d) down h d s
        else h d s) ((List.replicate (n + 1) (List.replicate 3 ({} : DummyLevel))).map (rulesOf DummyLevel.rule)) ≠ [] := by
      intro h0
      have := ih (fun d s => if d ≤ 2 then K.step (rulesOf DummyLevel.rule (List.replicate 3 {}) d) down h d s else h d s)
      rw [h0] at this
      cases this
    rw [List.getLast?_cons_of_ne_nil hne, ih, hstep, ← Function.iterate_succ_apply]

theorem DummyNet.asCIN_predictOn {net : DummyNet R} (hl : 1 ≤ net.layers) (down : Bool) (K : Cells)
    (h : Nat → Finset Nat → R) :
    net.asCIN.predictOn 𝕜 DummyLevel.rule down K h = net.predictOn 𝕜 down K h := by
  obtain ⟨k, hk⟩ : ∃ k, net.layers = k + 1 := ⟨net.layers - 1, by omega⟩
  unfold CINNet.predictOn DummyNet.predictOn
  show net.lin _ = net.lin _
  refine congrArg net.lin (congrArg List.sum (List.map_congr_left fun d _ => ?_))
  have : jumpOf net.asCIN.jump (K.run down net.asCIN.maxDim h (net.asCIN.convs.map (rulesOf DummyLevel.rule))) d =
      (K.add down)^[net.layers] h d := by
    funext s
    unfold jumpOf
    show (((K.run down 2 h (net.asCIN.convs.map (rulesOf DummyLevel.rule))).getLast?).map fun h => h d s).getD 0 = _
    have hc : net.asCIN.convs = List.replicate (k + 1) (List.replicate 3 {}) := by rw [← hk]; rfl
    rw [hc, dummy_iterate, hk]
    rfl
  rw [this]
  rfl

/-- Features that agree in each dimension, cell by cell in some order. -/
theorem AgnosticNet.predict_perm (net : AgnosticNet R) {X Y : Nat → List R}
    (h : ∀ d ≤ net.maxDim, (X d).Perm (Y d)) : net.predict 𝕜 X = net.predict 𝕜 Y := by
  unfold AgnosticNet.predict
  refine congrArg net.lin2 (congrArg List.sum (List.map_congr_left fun d hd => ?_))
  have hp := (h d (by have := List.mem_range.mp hd; omega)).map (net.first d)
  unfold poolOf
  rw [hp.length_eq, hp.sum_eq]

theorem poolSet_transport (readout : String) {S T : Finset (Finset Nat)} {f f' : Finset Nat → R}
    (hn : ∀ n, (S.filter fun s => s.card = n).card = (T.filter fun s => s.card = n).card) (φ : Nat → R)
    (hf : ∀ s ∈ S, f s = φ s.card) (hf' : ∀ s ∈ T, f' s = φ s.card) :
    poolSet 𝕜 readout S f = poolSet 𝕜 readout T f' := by
  have hm : S.val.map Finset.card = T.val.map Finset.card := by
    ext n
    have : ∀ U : Finset (Finset Nat), (U.val.map Finset.card).count n = (U.filter fun s => s.card = n).card := by
      intro U
      rw [Multiset.count_map, Finset.card_def, Finset.filter_val]
      congr 1
      apply Multiset.filter_congr
      intro s _
      exact eq_comm
    rw [this, this, hn]
  have hsum : ∑ s ∈ S, f s = ∑ s ∈ T, f' s := by
    rw [Finset.sum_congr rfl hf, Finset.sum_congr rfl hf']
    have : ∀ U : Finset (Finset Nat), ∑ s ∈ U, φ s.card = ((U.val.map Finset.card).map φ).sum := by
      intro U
      rw [Multiset.map_map]
      rfl
    rw [this, this, hm]
  have hcard : S.card = T.card := by
    have := congrArg Multiset.card hm
    rwa [Multiset.card_map, Multiset.card_map] at this
  unfold poolSet
  rw [hsum, hcard]

/-- One layer of SparseCIN without messages. -/
def AgnosticNet.asSparse (net : AgnosticNet R) : SparseNet R (SparseLevel 𝕜 R) where
  convs := [(List.range (net.maxDim + 1)).map fun d =>
    { msgUp := .plain fun _ => 0, msgBoundary := fun _ => 0, updateUp := net.first d, updateBoundary := id,
      combine := fun u _ => u, eps1 := 0, eps2 := 0 }]
  maxDim := net.maxDim
  readout := net.readout
  readoutDims := none
  act := net.act
  lin1s := List.replicate (net.maxDim + 1) net.lin1
  lin2 := net.lin2

omit [Module 𝕜 R] in
theorem AgnosticNet.asSparse_fits {net : AgnosticNet R} (hn : net.Fits) : (net.asSparse (𝕜 := 𝕜)).Fits where
  layers := by simp [AgnosticNet.asSparse]
  levels := by simp [AgnosticNet.asSparse]
  lin1s := by simp [AgnosticNet.asSparse]
  readout := hn.readout
  final := .inl rfl
  dims := by simp [AgnosticNet.asSparse, SparseNet.dims]

theorem AgnosticNet.asSparse_predict (net : AgnosticNet R) (v : View R) :
    (net.asSparse (𝕜 := 𝕜)).predict 𝕜 SparseLevel.rule v = net.predict 𝕜 v.X := by
  unfold SparseNet.predict AgnosticNet.predict
  show net.lin2 (poolOf 𝕜 "sum" ((List.range (net.maxDim + 1)).map _)) = _
  refine congrArg net.lin2 ?_
  simp only [poolOf, show ¬ ("sum" = "mean") by decide, if_false]
  refine congrArg List.sum (List.map_congr_left fun d hd => ?_)
  have hd := List.mem_range.mp hd
  show net.act _ = net.act _
  refine congrArg net.act ?_
  have h1 : (net.asSparse (𝕜 := 𝕜)).lin1s[d]?.getD id = net.lin1 := by
    show (List.replicate (net.maxDim + 1) net.lin1)[d]?.getD id = _
    rw [List.getElem?_replicate_of_lt hd]
    rfl
  rw [h1]
  refine congrArg net.lin1 ?_
  have h2 : v.final none (v.run net.maxDim true ((net.asSparse (𝕜 := 𝕜)).convs.map (rulesOf SparseLevel.rule))) d =
      (v.X d).map (net.first d) := by
    apply List.ext_getElem?
    intro i
    unfold View.final
    rw [List.getElem?_map, List.getElem?_map]
    by_cases hi : i < (v.X d).length
    · rw [List.getElem?_range hi, List.getElem?_eq_getElem hi, Option.map_some, Option.map_some]
      simp only [AgnosticNet.asSparse, List.map_cons, List.map_nil, View.run, finalRow, List.getLast?_singleton,
        Option.map_some, Option.getD_some, Option.some.injEq, View.layer, if_pos (show d ≤ net.maxDim by omega)]
      rw [rowOf, List.getElem?_map, List.getElem?_range hi]
      simp [View.newRow, rulesOf, hd, SparseLevel.rule, View.upSum, Msg.value, rowOf, hi]
    · rw [List.getElem?_eq_none (by rw [List.length_range]; omega), List.getElem?_eq_none (by omega)]
      rfl
  show poolOf 𝕜 net.readout (v.final none _ d) = _
  rw [show (net.asSparse (𝕜 := 𝕜)).maxDim = net.maxDim from rfl, h2]
  rfl

end Verif
