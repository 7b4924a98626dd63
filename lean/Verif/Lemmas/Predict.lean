import Verif.Lemmas.Models

/-!
# The outputs of networks on batches
-/

namespace Verif

variable {𝕜 R L : Type} [Field 𝕜] [AddCommMonoid R] [Module 𝕜 R]

theorem upTo_X_length {comp : Complex R L} (h : comp.Ready) {mB d : Nat} (hd : d ≤ mB) :
    ((comp.view.upTo mB).X d).length = comp.cellsIn d := by
  simp only [View.upTo, if_pos hd]
  exact ready_X_length h d

theorem run_ne {v : View R} {layers : List (Nat → Rule R)} (h : layers ≠ []) (m : Nat) (top : Bool) :
    v.run m top layers ≠ [] := by
  cases layers with
  | nil => exact absurd rfl h
  | cons _ _ => simp [View.run]

/-- A SparseCIN or CIN++ network returns one prediction per complex, up to the last complex with a
vertex. -/
theorem SparseNet.forward_batch {Lv : Type} {level : Lv → MPParams R → Py (List R)}
    {rule : Lv → Rule R} {needs : Lv → Prop} (hreal : Realises level rule needs false)
    {net : SparseNet R Lv} (hn : net.Fits)
    {front rest : List (Complex R L)} {last B : Complex R L} {mB : Nat}
    (hB : fromComplexList (front ++ last :: rest) mB = .ok B)
    (hr : ∀ comp ∈ front ++ last :: rest, comp.Ready)
    (hlast : 0 < last.cellsIn 0) (hrest : ∀ c ∈ rest, ∀ d, c.cellsIn d = 0) :
    net.forward 𝕜 level B =
      .ok ((front ++ [last]).map fun c => net.predict 𝕜 rule (c.view.upTo mB)) := by
  have hruns := batch_runs hB hr
  obtain ⟨data, h1, -, -, h4⟩ := runConvs_ok (top := true) hreal (m := net.maxDim) (convs := net.convs)
    (fun conv hc => ⟨hn.levels conv hc, fun _ _ _ _ => by simp⟩) hruns
  unfold SparseNet.forward
  rw [h1, ok_bind]
  have hne : B.view.run net.maxDim true (net.convs.map (rulesOf rule)) ≠ [] :=
    run_ne (by simpa using hn.layers) _ _
  have hle := (batch_dim_le hB).1
  have hfin := finalRows_ok hne B.view (fun w hw d => run_X_length _ _ _ _ hw d) net.jump
    (min net.maxDim B.dimension + 1)
  have hfin2 : finalRows net.jump ((B.view.run net.maxDim true (net.convs.map (rulesOf rule))).map
      fun w => (List.range (min net.maxDim B.dimension + 1)).map w.X) =
      .ok ((List.range (min net.maxDim B.dimension + 1)).map fun d =>
        (front ++ last :: rest).flatMap fun c => (c.view.upTo mB).final net.jump
          ((c.view.upTo mB).run net.maxDim true (net.convs.map (rulesOf rule))) d) := by
    rw [hfin, ok_inj]
    apply List.map_congr_left
    intro d hd
    have := List.mem_range.mp hd
    exact batch_final hB hr _ _ _ _ (by omega)
  refine (readoutPart_ok hn hB hr hlast hrest h4 (fun c => (c.view.upTo mB).final net.jump
    ((c.view.upTo mB).run net.maxDim true (net.convs.map (rulesOf rule)))) ?_ ?_ _ hfin2).trans ?_
  · intro c hc d hd
    rw [final_length, upTo_X_length (hr c hc) (by omega)]
  · intro c hc d hd
    have hc : c ∈ front ++ last :: rest := by
      simp only [List.mem_append, List.mem_cons, List.not_mem_nil, or_false] at hc ⊢
      rcases hc with hc | hc
      · exact .inl hc
      · exact .inr (.inl hc)
    exact final_nil (upTo_X_nil_of_gt hB (hr c hc) hc hd)
  · rw [ok_inj]
    apply List.map_congr_left
    intro c hc
    have hc : c ∈ front ++ last :: rest := by
      simp only [List.mem_append, List.mem_cons, List.not_mem_nil, or_false] at hc ⊢
      rcases hc with hc | hc
      · exact .inl hc
      · exact .inr (.inl hc)
    unfold SparseNet.predict
    congr 2
    apply List.map_congr_left
    intro d hd
    have hdm : d ≤ net.maxDim := by
      unfold SparseNet.dims at hd
      split at hd
      · have := (List.mem_filter.mp hd).2
        simpa using this
      · have := List.mem_range.mp hd; omega
    by_cases hdB : d ≤ B.dimension
    · rw [if_pos (by omega)]
    · rw [if_neg (by omega), final_nil (upTo_X_nil_of_gt hB (hr c hc) hc (by omega))]

/-- A CIN network returns one prediction per complex, up to the last complex with a vertex. -/
theorem CINNet.forward_batch {Lv : Type} {level : Lv → MPParams R → Py (List R)}
    {rule : Lv → Rule R} {needs : Lv → Prop} (hreal : Realises level rule needs true)
    {net : CINNet R Lv} (hn : net.Fits)
    {front rest : List (Complex R L)} {last B : Complex R L} {mB : Nat}
    (hB : fromComplexList (front ++ last :: rest) mB = .ok B)
    (hr : ∀ comp ∈ front ++ last :: rest, comp.Ready)
    (hlast : 0 < last.cellsIn 0) (hrest : ∀ c ∈ rest, ∀ d, c.cellsIn d = 0) :
    net.forward 𝕜 level B =
      .ok ((front ++ [last]).map fun c => net.predict 𝕜 rule (c.view.upTo mB)) := by
  have hruns := batch_runs hB hr
  obtain ⟨data, h1, -, -, h4⟩ := runConvs_ok (top := true) hreal (m := net.maxDim) (convs := net.convs)
    (fun conv hc => ⟨hn.levels conv hc, fun _ _ _ _ => by simp⟩) hruns
  unfold CINNet.forward
  rw [h1, ok_bind]
  have hne : B.view.run net.maxDim true (net.convs.map (rulesOf rule)) ≠ [] :=
    run_ne (by simpa using hn.layers) _ _
  have hle := (batch_dim_le hB).1
  have hfin := finalRows_ok hne B.view (fun w hw d => run_X_length _ _ _ _ hw d) net.jump
    (min net.maxDim B.dimension + 1)
  generalize hXdef : (fun (c : Complex R L) => (c.view.upTo mB).final net.jump
    ((c.view.upTo mB).run net.maxDim true (net.convs.map (rulesOf rule)))) = X
  have hXapp : ∀ c, X c = (c.view.upTo mB).final net.jump
    ((c.view.upTo mB).run net.maxDim true (net.convs.map (rulesOf rule))) := by
    intro c; rw [← hXdef]
  have hmem : ∀ c ∈ front ++ [last], c ∈ front ++ last :: rest := by
    intro c hc
    simp only [List.mem_append, List.mem_cons, List.not_mem_nil, or_false] at hc ⊢
    rcases hc with hc | hc
    · exact .inl hc
    · exact .inr (.inl hc)
  have hfin2 : (List.range (min net.maxDim B.dimension + 1)).map (B.view.final net.jump
        (B.view.run net.maxDim true (net.convs.map (rulesOf rule)))) =
      (List.range (min net.maxDim B.dimension + 1)).map fun d =>
        (front ++ last :: rest).flatMap fun c =>
          if d ≤ min net.maxDim B.dimension then X c d else [] := by
    apply List.map_congr_left
    intro d hd
    have := List.mem_range.mp hd
    simp only [if_pos (show d ≤ min net.maxDim B.dimension by omega), hXapp]
    exact batch_final hB hr _ _ _ _ (by omega)
  obtain ⟨pool, hpool, hagg⟩ := getPoolingFn_ok (𝕜 := 𝕜) (R := R) hn.readout
  dsimp only
  rw [hfin, ok_bind, hpool, ok_bind, hfin2, poolComplex_ok (front := front) (last := last)
    (rest := rest) (X := fun c d => if d ≤ min net.maxDim B.dimension then X c d else []), ok_bind,
    stackReduce_ok (by simp) (.inl rfl), ok_bind]
  · simp only [pure_eq_ok, ok_inj, List.map_map]
    apply List.map_congr_left
    intro c hc
    simp only [Function.comp, CINNet.predict, hagg]
    congr 3
    simp only [poolOf, show ¬ ("sum" = "mean") by decide, if_false]
    congr 1
    apply List.map_congr_left
    intro d hd
    have hdm : d ≤ net.maxDim := by have := List.mem_range.mp hd; omega
    by_cases hdB : d ≤ B.dimension
    · rw [if_pos (show d ≤ min net.maxDim B.dimension by omega), hXapp]
    · rw [if_neg (show ¬ d ≤ min net.maxDim B.dimension by omega),
        final_nil (upTo_X_nil_of_gt hB (hr c (hmem c hc)) (hmem c hc) (by omega))]
  · intro d hd
    rw [h4, batch_vec hB hr (by omega)]
  · exact hlast
  · intro c hc d _; exact hrest c hc d
  · omega
  · omega
  · intro c hc d hd
    rw [if_pos (by omega), hXapp, final_length, upTo_X_length (hr c hc) (by omega)]
  · intro c _ d hd
    rw [if_neg (by omega)]

/-! ### Invariance -/

theorem Relabels.upTo {v w : View R} {φ : Nat → Nat → Nat} (h : Relabels v w φ) (m : Nat) :
    Relabels (v.upTo m) (w.upTo m) φ where
  size := by
    intro d
    simp only [View.upTo]
    split
    · exact h.size d
    · rfl
  inj := by
    intro d c e hc he
    simp only [View.upTo] at hc he
    split at hc
    · exact h.inj d c e hc (by simpa [*] using he)
    · simp at hc
  feat := by
    intro d c hc
    simp only [View.upTo] at hc ⊢
    split
    · exact h.feat d c (by simpa [*] using hc)
    · rfl
  up := by
    intro d
    simp only [View.upTo]
    split
    · exact h.up d
    · simp
  down := by
    intro d
    simp only [View.upTo]
    split
    · exact h.down d
    · simp
  bnd := by
    intro d
    simp only [View.upTo]
    split
    · exact h.bnd d
    · simp

/-- Predictions do not depend on the numbering. -/
theorem SparseNet.predict_relabel {Lv : Type} {rule : Lv → Rule R} (net : SparseNet R Lv)
    {v w : View R} {φ : Nat → Nat → Nat} (h : Relabels v w φ) (hv : v.InRange) :
    net.predict 𝕜 rule w = net.predict 𝕜 rule v := by
  unfold SparseNet.predict
  congr 2
  apply List.map_congr_left
  intro d _
  rw [poolOf_perm net.readout (h.final hv _ _ _ _ d)]

/-- Predictions do not depend on the numbering. -/
theorem CINNet.predict_relabel {Lv : Type} {rule : Lv → Rule R} (net : CINNet R Lv)
    {v w : View R} {φ : Nat → Nat → Nat} (h : Relabels v w φ) (hv : v.InRange) :
    net.predict 𝕜 rule w = net.predict 𝕜 rule v := by
  unfold CINNet.predict
  congr 4
  apply List.map_congr_left
  intro d _
  rw [poolOf_perm net.readout (h.final hv _ _ _ _ d)]

/-- The same feature rows, upper columns and incidence columns. -/
structure SameButLower (v w : View R) : Prop where
  X : w.X = v.X
  up : w.up = v.up
  bnd : w.bnd = v.bnd

theorem SameButLower.layer {v w : View R} (h : SameButLower v w) {rules : Nat → Rule R}
    (hrules : ∀ d x u dn dn' b, (rules d).new x u dn b = (rules d).new x u dn' b) (m : Nat)
    (top : Bool) : SameButLower (v.layer rules m top) (w.layer rules m top) := by
  refine ⟨?_, h.up, h.bnd⟩
  have hb : w.below = v.below := by
    funext d
    cases d with
    | zero => rfl
    | succ d => simp only [View.below, h.X]
  funext d
  simp only [View.layer, h.X]
  split
  · apply List.map_congr_left
    intro c _
    unfold View.newRow View.upSum View.bndSum
    rw [h.X, h.up, h.bnd, hb]
    exact hrules _ _ _ _ _ _
  · rfl

theorem SameButLower.run {v w : View R} (h : SameButLower v w) {layers : List (Nat → Rule R)}
    (hrules : ∀ rules ∈ layers, ∀ d x u dn dn' b, (rules d).new x u dn b = (rules d).new x u dn' b)
    (m : Nat) (top : Bool) :
    List.Forall₂ SameButLower (v.run m top layers) (w.run m top layers) := by
  induction layers generalizing v w with
  | nil => exact .nil
  | cons rules rest ih =>
    exact .cons (h.layer (hrules rules (by simp)) m top)
      (ih (h.layer (hrules rules (by simp)) m top) (fun r hr => hrules r (by simp [hr])))

theorem SameButLower.final {v w : View R} (h : SameButLower v w) {layers : List (Nat → Rule R)}
    (hrules : ∀ rules ∈ layers, ∀ d x u dn dn' b, (rules d).new x u dn b = (rules d).new x u dn' b)
    (m : Nat) (top : Bool) (jump : Option (List R → R)) (d : Nat) :
    w.final jump (w.run m top layers) d = v.final jump (v.run m top layers) d := by
  unfold View.final
  rw [h.X]
  apply List.map_congr_left
  intro c _
  have hrun := h.run hrules m top
  have hmap : ∀ {vs ws : List (View R)}, List.Forall₂ SameButLower vs ws →
      (ws.map fun w => rowOf (w.X d) c) = vs.map fun w => rowOf (w.X d) c := by
    intro vs ws hvw
    induction hvw with
    | nil => rfl
    | cons hab _ ih => rw [List.map_cons, List.map_cons, ih, hab.X]
  have he := hmap hrun
  cases jump with
  | some f => simp only [finalRow, he]
  | none =>
    simp only [finalRow]
    rw [← List.getLast?_map, ← List.getLast?_map, he]

theorem SameButLower.upTo {v w : View R} (h : SameButLower v w) (m : Nat) :
    SameButLower (v.upTo m) (w.upTo m) := by
  refine ⟨?_, ?_, ?_⟩
  · simp only [View.upTo, h.X]
  · simp only [View.upTo, h.up]
  · simp only [View.upTo, h.bnd]

end Verif
