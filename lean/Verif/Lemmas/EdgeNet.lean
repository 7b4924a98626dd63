import Verif.Spec.EdgeNet
import Verif.Props.Models
import Verif.Props.CellNet

/-!
# Lemmas on `EdgeCIN0`
-/

namespace Verif

variable {𝕜 R L : Type} [Field 𝕜] [AddCommMonoid R] [Module 𝕜 R]

/-- A rule that keeps or maps the rows of a dimension. -/
theorem layer_map {v : View R} {rules : Nat → Rule R} {m : Nat} {top : Bool} {d : Nat} {f : R → R} (hd : d ≤ m)
    (hf : ∀ x u dn b, (rules d).new x u dn b = f x) : (v.layer rules m top).X d = (v.X d).map f := by
  unfold View.layer
  dsimp only
  rw [if_pos hd]
  apply List.ext_getElem?
  intro i
  rw [List.getElem?_map, List.getElem?_map]
  by_cases hi : i < (v.X d).length
  · rw [List.getElem?_range hi, List.getElem?_eq_getElem hi]
    simp only [Option.map_some, View.newRow, hf, rowOf, List.getElem?_eq_getElem hi, Option.getD_some]
  · rw [List.getElem?_eq_none (by rw [List.length_range]; omega), List.getElem?_eq_none (by omega)]
    rfl

/-- In the dimensions of vertices and edges the layer of the specification does what `EdgeCINConv` does. -/
theorem EdgeNet.layer_low (net : EdgeNet R (CINLevel 𝕜 R)) (v : View R) (i : Nat) (conv : List (CINLevel 𝕜 R)) {d : Nat}
    (hd : d ≤ 1) : (v.layer (rulesOf CINLevel.rule conv) 1 net.includeTop).X d =
      (v.layer (net.rules i conv) 2 true).X d := by
  unfold View.layer
  dsimp only
  rw [if_pos hd, if_pos (by omega)]
  refine congrArg (fun f => (List.range (v.X d).length).map f) ?_
  funext c
  unfold View.newRow
  rcases (by omega : d = 0 ∨ d = 1) with rfl | rfl
  · rfl
  · cases ht : net.includeTop with
    | true => simp [EdgeNet.rules, ht]
    | false =>
      simp only [EdgeNet.rules, ht, Nat.lt_irrefl, decide_false, Bool.or_false, Bool.false_eq_true, if_false]
      rfl

/-- One turn of the loop. -/
theorem EdgeNet.loop_step {net : EdgeNet R (CINLevel 𝕜 R)} {i : Nat} {conv : List (CINLevel 𝕜 R)}
    {rest : List (List (CINLevel 𝕜 R))} {comp : Complex R L} (h : comp.Runs) (hlev : conv.length = 2)
    (htop : net.includeTop = true → net.updateTop = true → i + 1 < net.convs.length → i < net.topNNs.length) :
    net.run CINLevel.forward i comp (conv :: rest) = (do
      let out ← net.run CINLevel.forward (i + 1) (comp.withX (comp.view.layer (net.rules i conv) 2 true).X) rest
      return (out.1, (List.range (min 1 comp.dimension + 1)).map (comp.view.layer (net.rules i conv) 2 true).X ::
        out.2)) := by
  have hfit : FitLevels (fun _ : CINLevel 𝕜 R => False) 1 net.includeTop conv := ⟨hlev, fun _ _ _ h => h.elim⟩
  obtain ⟨ps, hps, hc⟩ := bind_eq_ok.mp (h.conv realises_cin hfit)
  have hlow : (List.range (min 1 comp.dimension + 1)).map
      (comp.view.layer (rulesOf CINLevel.rule conv) 1 net.includeTop).X =
      (List.range (min 1 comp.dimension + 1)).map (comp.view.layer (net.rules i conv) 2 true).X := by
    apply List.map_congr_left
    intro d hd
    exact net.layer_low _ _ _ (by have := List.mem_range.mp hd; omega)
  conv_lhs => unfold EdgeNet.run
  rw [hps, ok_bind, hc, ok_bind, hlow]
  by_cases hu : (net.includeTop && net.updateTop && decide (i + 1 < net.convs.length)) = true ∧ 2 < comp.cochains.length
  · obtain ⟨hu, hi4⟩ := hu
    have hw : net.written i comp ((List.range (min 1 comp.dimension + 1)).map
        (comp.view.layer (net.rules i conv) 2 true).X) = .ok ((List.range (min 2 comp.dimension + 1)).map
        (comp.view.layer (net.rules i conv) 2 true).X) := by
      unfold EdgeNet.written
      rw [if_pos hu]
      simp only [Bool.and_eq_true, decide_eq_true_eq] at hu
      obtain ⟨⟨hi1, hi2⟩, hi3⟩ := hu
      have hlt := htop hi1 hi2 hi3
      have hx := h.X_eq (List.getElem?_eq_getElem hi4)
      have hdim : 2 ≤ comp.dimension := by have := h.len; omega
      simp only [listGet, List.getElem?_eq_getElem hlt, ok_bind, List.getElem?_eq_getElem hi4, hx.1, pure_eq_ok, ok_inj]
      rw [show min 1 comp.dimension + 1 = 2 by omega, show min 2 comp.dimension + 1 = 2 + 1 by omega, List.range_succ (n := 2),
        List.map_append, List.map_singleton, layer_map (f := net.topNNs[i]) (Nat.le_refl 2)]
      intro x u dn b
      simp [EdgeNet.rules, hi1, hi2, hi3, hlt]
    rw [hw, ok_bind, h.write (net.rules i conv) 2 true, ok_bind]
  · have hw : net.written i comp ((List.range (min 1 comp.dimension + 1)).map
        (comp.view.layer (net.rules i conv) 2 true).X) = .ok ((List.range (min 1 comp.dimension + 1)).map
        (comp.view.layer (net.rules i conv) 2 true).X) := by
      unfold EdgeNet.written
      split
      · next h1 =>
        rw [List.getElem?_eq_none (by by_contra h2; exact hu ⟨h1, by omega⟩)]
      · rfl
    have hX : (comp.view.layer (rulesOf CINLevel.rule conv) 1 net.includeTop).X =
        (comp.view.layer (net.rules i conv) 2 true).X := by
      funext d
      by_cases hd : d ≤ 1
      · exact net.layer_low _ _ _ hd
      · have e1 : (comp.view.layer (rulesOf CINLevel.rule conv) 1 net.includeTop).X d = comp.view.X d := by
          unfold View.layer
          dsimp only
          rw [if_neg hd]
        rw [e1]
        by_cases hd2 : d = 2
        · subst hd2
          by_cases h2 : 2 < comp.cochains.length
          · rw [layer_map (f := id) (Nat.le_refl 2), List.map_id]
            intro x u dn b
            simp only [Bool.and_eq_true, decide_eq_true_eq, h2, and_true] at hu
            simp only [EdgeNet.rules]
            rw [if_neg]
            · rfl
            · rintro ⟨a, b, c⟩; exact hu ⟨⟨a, b⟩, c⟩
          · have : comp.view.X 2 = [] := view_X_none (List.getElem?_eq_none (by omega))
            unfold View.layer
            simp [this]
        · unfold View.layer
          dsimp only
          rw [if_neg (by omega)]
    rw [hw, ok_bind, ← hlow, h.write, ok_bind, hX]

/-- The loop over the layers. -/
theorem EdgeNet.loop_ok {net : EdgeNet R (CINLevel 𝕜 R)}
    (htop : net.includeTop = true → net.updateTop = true → net.topNNs.length + 1 = net.convs.length)
    {rest : List (List (CINLevel 𝕜 R))} {i : Nat} {comp : Complex R L} (h : comp.Runs)
    (hlev : ∀ conv ∈ rest, conv.length = 2) :
    ∃ data, net.run CINLevel.forward i comp rest = .ok (data, (comp.view.run 2 true
        ((rest.zipIdx i).map fun p => net.rules p.2 p.1)).map fun w =>
          (List.range (min 1 comp.dimension + 1)).map w.X) ∧
      data.dimension = comp.dimension ∧ data.cochains.length = comp.cochains.length ∧
      ∀ d, data.attr d Cochain.batch = comp.attr d Cochain.batch := by
  induction rest generalizing i comp with
  | nil => exact ⟨comp, rfl, rfl, rfl, fun _ => rfl⟩
  | cons conv rest ih =>
    have hw := h.withX (net.rules i conv) 2 true
    obtain ⟨data, h1, h2, h3, h4⟩ := ih (i := i + 1) hw.1 fun c hc => hlev c (List.mem_cons_of_mem _ hc)
    refine ⟨data, ?_, h2.trans rfl, h3.trans (by simp [Complex.withX]), ?_⟩
    · rw [EdgeNet.loop_step h (hlev conv List.mem_cons_self) (fun a b c => by have := htop a b; omega), h1, ok_bind, hw.2]
      rfl
    · intro d
      rw [h4, withX_batch]

theorem EdgeNet.forward_batch {net : EdgeNet R (CINLevel 𝕜 R)} (hn : net.Fits)
    {front rest : List (Complex R L)} {last B : Complex R L} {mB : Nat}
    (hB : fromComplexList (front ++ last :: rest) mB = .ok B)
    (hr : ∀ comp ∈ front ++ last :: rest, comp.Ready)
    (hlast : 0 < last.cellsIn 0) (hrest : ∀ c ∈ rest, ∀ d, c.cellsIn d = 0) :
    net.forward 𝕜 CINLevel.forward B = .ok ((front ++ [last]).map fun c => net.predict (c.view.upTo mB)) := by
  obtain ⟨data, h1, -, -, h4⟩ := EdgeNet.loop_ok (i := 0) hn.tops (batch_runs hB hr) hn.levels
  unfold EdgeNet.forward
  rw [h1, ok_bind]
  have hall : net.allRules ≠ [] := by simpa [EdgeNet.allRules] using hn.layers
  have hne : B.view.run 2 true net.allRules ≠ [] := run_ne hall _ _
  have hle := (batch_dim_le hB).1
  have hfin := finalRows_ok hne B.view (fun w hw d => run_X_length _ _ _ _ hw d) net.jump (min 1 B.dimension + 1)
  generalize hXdef : (fun (c : Complex R L) => (c.view.upTo mB).final net.jump
    ((c.view.upTo mB).run 2 true net.allRules)) = X
  have hXapp : ∀ c, X c = (c.view.upTo mB).final net.jump ((c.view.upTo mB).run 2 true net.allRules) := by
    intro c; rw [← hXdef]
  have hmem : ∀ c ∈ front ++ [last], c ∈ front ++ last :: rest := by
    intro c hc
    simp only [List.mem_append, List.mem_cons, List.not_mem_nil, or_false] at hc ⊢
    rcases hc with hc | hc
    · exact .inl hc
    · exact .inr (.inl hc)
  have hfin2 : (List.range (min 1 B.dimension + 1)).map (B.view.final net.jump (B.view.run 2 true net.allRules)) =
      (List.range (min 1 B.dimension + 1)).map fun d =>
        (front ++ last :: rest).flatMap fun c => if d ≤ min 1 B.dimension then X c d else [] := by
    apply List.map_congr_left
    intro d hd
    have := List.mem_range.mp hd
    simp only [if_pos (show d ≤ min 1 B.dimension by omega), hXapp]
    exact batch_final hB hr _ _ _ _ (by omega)
  obtain ⟨pool, hpool, hagg⟩ := getPoolingFn_ok (𝕜 := 𝕜) (R := R) hn.readout
  dsimp only
  rw [show (net.convs.zipIdx.map fun p => net.rules p.2 p.1) = net.allRules from rfl, hfin, ok_bind, hpool, ok_bind, hfin2,
    poolComplex_ok (front := front) (last := last) (rest := rest)
      (X := fun c d => if d ≤ min 1 B.dimension then X c d else []), ok_bind, stackReduce_ok (by simp) (.inl rfl), ok_bind]
  · simp only [pure_eq_ok, ok_inj, List.map_map]
    apply List.map_congr_left
    intro c hc
    simp only [Function.comp, EdgeNet.predict]
    refine congrArg (fun r => net.lin2 (net.act (net.lin1 r))) ?_
    simp only [poolOf, show ¬ ("sum" = "mean") by decide, if_false]
    show _ = ((List.range 2).map fun d => poolOf 𝕜 net.readout ((c.view.upTo mB).final net.jump
      ((c.view.upTo mB).run 2 true net.allRules) d)).sum
    congr 1
    apply List.map_congr_left
    intro d hd
    have hdm : d ≤ 1 := by have := List.mem_range.mp hd; omega
    rw [hagg]
    by_cases hdB : d ≤ B.dimension
    · rw [if_pos (show d ≤ min 1 B.dimension by omega), hXapp]
    · rw [if_neg (show ¬ d ≤ min 1 B.dimension by omega),
        final_nil (upTo_X_nil_of_gt hB (hr c (hmem c hc)) (hmem c hc) (by omega))]
  · intro d hd
    rw [h4, batch_vec hB hr (by omega)]
  · exact hlast
  · intro c hc d _; exact hrest c hc d
  · omega
  · omega
  · intro c hc d hd
    rw [if_pos (by omega), hXapp, final_length, upTo_X_length (hr c hc) (by omega)]
  · intro c _ d hd
    rw [if_neg (by omega)]

theorem EdgeNet.forward_all {net : EdgeNet R (CINLevel 𝕜 R)} (hn : net.Fits) {cs : List (Complex R L)} (hne : cs ≠ [])
    (hr : ∀ c ∈ cs, c.Ready) (h0 : ∀ c ∈ cs, 0 < c.cellsIn 0) (mB : Nat) :
    (fromComplexList cs mB >>= net.forward 𝕜 CINLevel.forward) = .ok (cs.map fun c => net.predict (c.view.upTo mB)) := by
  obtain ⟨B, hB⟩ := batch_exists hne hr mB
  obtain ⟨front, last, rfl⟩ := split_last hne
  rw [hB, ok_bind]
  exact EdgeNet.forward_batch (rest := []) hn hB hr (h0 last (by simp)) (by simp)

theorem EdgeNet.predict_eq {net : EdgeNet R (CINLevel 𝕜 R)} {v : View R} {down : Bool}
    {cells : Nat → List (Finset Nat)} {h : Nat → Finset Nat → R} (hv : Shows v down cells h) :
    net.predict v = net.predictOn down (setsOf cells) h := by
  unfold EdgeNet.predict EdgeNet.predictOn
  refine congrArg (fun r => net.lin2 (net.act (net.lin1 r))) (congrArg List.sum (List.map_congr_left fun d _ => ?_))
  rw [hv.final net.jump hv.run, poolOf_eq (hv.nodup d)]
  rfl

theorem EdgeNet.predict_relabel (net : EdgeNet R (CINLevel 𝕜 R)) {v w : View R} {φ : Nat → Nat → Nat}
    (h : Relabels v w φ) (hv : v.InRange) : net.predict w = net.predict v := by
  unfold EdgeNet.predict
  refine congrArg (fun r => net.lin2 (net.act (net.lin1 r))) (congrArg List.sum (List.map_congr_left fun d _ => ?_))
  rw [poolOf_perm net.readout (h.final hv _ _ _ _ d)]

theorem EdgeAlike.layer {net : EdgeNet R (CINLevel 𝕜 R)} {v w : View R} (h : EdgeAlike net.includeTop v w) (i : Nat)
    (conv : List (CINLevel 𝕜 R)) :
    EdgeAlike net.includeTop (v.layer (net.rules i conv) 2 true) (w.layer (net.rules i conv) 2 true) := by
  refine ⟨?_, ?_, h.up, h.down⟩
  · intro d hd
    unfold View.layer
    dsimp only
    rw [if_pos (by omega), if_pos (by omega), h.X d hd]
    refine List.map_congr_left fun c _ => ?_
    match d, hd with
    | 0, _ =>
      simp only [View.newRow, View.upSum, View.downSum, EdgeNet.rules, rulesOf, View.below, h.X 0 (by omega),
        h.X 1 (by omega), h.up 0 (by omega), h.down 0 (by omega), Nat.zero_add]
      split <;> rfl
    | 1, _ =>
      cases ht : net.includeTop with
      | true =>
        simp only [View.newRow, View.upSum, View.downSum, EdgeNet.rules, ht, if_true, rulesOf, View.below,
          h.X 0 (by omega), h.X 1 (by omega), h.up 1 (by omega), h.down 1 (by omega), h.rows ht]
        split <;> rfl
      | false =>
        simp only [View.newRow, View.upSum, View.downSum, EdgeNet.rules, ht, Bool.false_eq_true, if_false, rulesOf,
          View.below, h.X 0 (by omega), h.X 1 (by omega), h.up 1 (by omega), h.down 1 (by omega)]
        split <;> rfl
  · intro ht
    unfold View.layer
    dsimp only
    rw [if_pos (by omega), if_pos (by omega), h.rows ht]
    refine List.map_congr_left fun c _ => ?_
    simp only [View.newRow, EdgeNet.rules, h.rows ht]

theorem EdgeAlike.run {net : EdgeNet R (CINLevel 𝕜 R)} :
    ∀ {v w : View R} (_ : EdgeAlike net.includeTop v w) (i : Nat) (convs : List (List (CINLevel 𝕜 R))),
      List.Forall₂ (EdgeAlike net.includeTop)
        (v.run 2 true ((convs.zipIdx i).map fun p => net.rules p.2 p.1))
        (w.run 2 true ((convs.zipIdx i).map fun p => net.rules p.2 p.1))
  | _, _, _, _, [] => .nil
  | _, _, h, i, conv :: convs => .cons (h.layer i conv) (EdgeAlike.run (h.layer i conv) (i + 1) convs)

theorem EdgeAlike.predict {net : EdgeNet R (CINLevel 𝕜 R)} {v w : View R} (h : EdgeAlike net.includeTop v w) :
    net.predict v = net.predict w := by
  unfold EdgeNet.predict
  refine congrArg (fun r => net.lin2 (net.act (net.lin1 r))) (congrArg List.sum (List.map_congr_left fun d hd => ?_))
  have hd : d ≤ 1 := by
    have := List.mem_range.mp hd
    omega
  refine congrArg (poolOf 𝕜 net.readout) ?_
  unfold View.final
  rw [h.X d hd]
  refine List.map_congr_left fun c _ => ?_
  have hrun : (v.run 2 true net.allRules).map (fun u => u.X d) = (w.run 2 true net.allRules).map fun u => u.X d :=
    (map_of_forall₂ (h.run 0 net.convs) fun a b hab => (hab.X d hd).symm).symm
  unfold finalRow
  cases net.jump with
  | none =>
    have := congrArg List.getLast? hrun
    rw [List.getLast?_map, List.getLast?_map] at this
    have := congrArg (fun o => (o.map fun rows => rowOf rows c).getD 0) this
    simpa [Option.map_map, Function.comp_def] using this
  | some f =>
    have := congrArg (List.map fun rows => rowOf rows c) hrun
    simpa [Function.comp_def] using congrArg f this

end Verif
