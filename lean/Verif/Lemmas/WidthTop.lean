import Verif.Lemmas.WidthNets

/-!
# Helper lemmas for the widths: `CIN0`, `EdgeCIN0`, cells above the maximal dimension
-/

namespace Verif

theorem mul_two_eq (w : Nat) : w + w = w * 2 := by omega

/-! ### Cells above the maximal dimension -/

theorem levelsOf_top {maxDim : Nat} {data : List LevelShape} (h : maxDim + 1 < data.length) :
    levelsOf maxDim data = maxDim + 1 := by unfold levelsOf; omega

theorem up_top {data : List LevelShape} {maxDim w : Nat} {down : Bool} {above : LevelShape}
    (hup : (levelAt data maxDim).up = true) (ha : data[maxDim + 1]? = some above) :
    (levelParams (stamp (maxDim + 1) w data) (levelAt (stamp (maxDim + 1) w data) maxDim) maxDim maxDim
      true down).up = true ∧
    (levelParams (stamp (maxDim + 1) w data) (levelAt (stamp (maxDim + 1) w data) maxDim) maxDim maxDim
      true down).upAttr = above.x := by
  have hlt : maxDim + 1 < data.length := (List.getElem?_eq_some_iff.1 ha).1
  simp [levelParams, upShape, levelAt_stamp_lt (w := w) (show maxDim < data.length by omega)
    (Nat.lt_succ_self maxDim), stamp_ge (n := maxDim + 1) (le_refl _), ha, hup]

/-- The parameters of dimension `i` of a stamped batch. -/
theorem params_at {data : List LevelShape} {maxDim n w i : Nat} {top down : Bool} {p : ParamShape}
    (h : ((List.range (levelsOf maxDim (stamp n w data))).map fun d =>
      levelParams (stamp n w data) (levelAt (stamp n w data) d) d maxDim top down)[i]? = some p) :
    i < levelsOf maxDim data ∧
      p = levelParams (stamp n w data) (levelAt (stamp n w data) i) i maxDim top down := by
  rw [List.getElem?_map] at h
  obtain ⟨d, hd, rfl⟩ := Option.map_eq_some_iff.1 h
  obtain ⟨hi, hdi⟩ := List.getElem?_eq_some_iff.1 hd
  simp only [List.length_range, levelsOf_stamp] at hi
  simp only [List.getElem_range] at hdi
  subst hdi
  exact ⟨hi, rfl⟩

/-- The exception for features of the wrong size above the maximal dimension. -/
def topError (x : Option Nat) : PyErr := if x = none then .type else .runtime

theorem sparse_level_top {maxDim w hidden : Nat} {norm : Nat → Mod} (hn : NormOk norm)
    {l : SparseWidths} (hl : l ∈ sparseCINConv maxDim w hidden norm .pointwise true) {p : ParamShape}
    (hp : GoodParams w p) (hup : p.up = true) :
    l.forward p = if p.upAttr ≠ some w then .error (topError p.upAttr) else .ok hidden := by
  by_cases h : p.upAttr = some w
  · rw [if_neg (by simp [h]), sparse_level hn hl hp (fun _ _ => h)]
  · rw [if_pos h, List.eq_of_mem_replicate hl]
    have : (if p.up then msgUpOut (msgUpNet w .pointwise true) w p.upAttr else .ok w) =
        .error (topError p.upAttr) := by
      rw [if_pos hup]
      cases hx : p.upAttr with
      | none => rfl
      | some a =>
        have : w + a ≠ w * 2 := by
          intro e
          apply h
          rw [hx]
          congr 1
          omega
        simp [msgUpOut, msgUpNet, seqOut, Mod.out, this, topError]
    simp only [SparseWidths.forward, hp.x, needX, ok_bind, SparseWidths.up, this]
    rfl

theorem sparse_run_top {data : List LevelShape} {maxDim hidden : Nat} {norm : Nat → Mod}
    (hn : NormOk norm) {above : LevelShape} (hup : (levelAt data maxDim).up = true)
    (ha : data[maxDim + 1]? = some above) (k w : Nat) :
    runWidths (fun data => paramShapes data maxDim true false) SparseWidths.forward
        (stamp (maxDim + 1) w data)
        ((List.range k).map fun i =>
          sparseCINConv maxDim (layerDim w hidden i) hidden norm .pointwise true) =
      if k ≠ 0 ∧ (above.x ≠ some w ∨ (2 ≤ k ∧ above.x ≠ some hidden)) then
        .error (topError above.x)
      else .ok (stamp (maxDim + 1) (if k = 0 then w else hidden) data,
        List.replicate k (List.replicate (maxDim + 1) hidden)) := by
  have hlt : maxDim + 1 < data.length := (List.getElem?_eq_some_iff.1 ha).1
  have hne : data ≠ [] := by rintro rfl; simp at hlt
  have hlev := levelsOf_top hlt
  refine runWidths_cond (bad := fun w => above.x ≠ some w)
    (conv := fun w => sparseCINConv maxDim w hidden norm .pointwise true) (by omega) (by omega)
    (fun w => ?_) (fun w => by simp [sparseCINConv]) k w
  refine ⟨_, paramShapes_of (stamp_ne hne), by simp [levelsOf_stamp, hlev], ?_⟩
  intro i l p hl hp
  obtain ⟨hi, rfl⟩ := params_at hp
  have g := goodParams_stamp (w := w) (top := true) (down := false) hne hi
  rw [hlev] at g hi
  by_cases hi' : i = maxDim
  · subst hi'
    obtain ⟨h1, h2⟩ := up_top (w := w) (down := false) hup ha
    rw [sparse_level_top hn (List.mem_of_getElem? hl) g h1, h2]
    simp
  · rw [if_neg (by omega)]
    exact sparse_level hn (List.mem_of_getElem? hl) g
      (fun _ => goodUp_stamp' (Or.inr rfl) (Or.inl (by omega)))

/-! ### `CIN0` -/

theorem cinUpdate_out (w h : Nat) : seqOut (cinUpdate w h .pointwise) w = .ok h := by
  simp [cinUpdate, seqOut, Mod.out, ok_bind]

theorem cinMsg_out (i w : Nat) : seqOut (cinMsg i w .pointwise) i = .ok w := by
  simp [cinMsg, seqOut, Mod.out, ok_bind]

theorem cinMsg_error {i j w : Nat} (h : j ≠ i) :
    seqOut (cinMsg i w .pointwise) j = .error .runtime := by
  simp [cinMsg, seqOut, Mod.out, h]

/-- What the levels have in common: the parts of messages and updates. -/
theorem cin_forward {l : CINWidths} {w h : Nat} {p : ParamShape} {e : PyErr} {bad : Prop}
    [Decidable bad] (hx : p.x = some w)
    (hu : l.up w p = if bad then .error e else .ok w) (hd : l.down w p = .ok w)
    (hup : l.update = cinUpdate w h .pointwise) :
    l.forward p = if bad then .error e else .ok h := by
  by_cases hb : bad
  · rw [if_pos hb] at hu ⊢
    simp only [CINWidths.forward, hx, needX, ok_bind, hu]
    rfl
  · rw [if_neg hb] at hu ⊢
    simp only [CINWidths.forward, hx, needX, ok_bind, hu, hd, addInto_self, addWidths_self, hup,
      cinUpdate_out]

theorem cin_up_ok {l : CINWidths} {w : Nat} {p : ParamShape} (hs : l.upSize = w)
    (hm : l.msgUp = cinMsg (w * 2) w .pointwise) (hu : GoodUp w p) : l.up w p = .ok w := by
  rw [CINWidths.up]
  by_cases h : p.up = true
  · rw [if_pos h, hu h]
    simp only [hm, mul_two_eq, cinMsg_out]
  · rw [if_neg h, hs]

theorem cin_up_top {l : CINWidths} {w w' : Nat} {p : ParamShape}
    (hm : l.msgUp = cinMsg (w * 2) w .pointwise) (hu : p.up = true) (ha : p.upAttr = some w') :
    l.up w p = if w' ≠ w then .error .runtime else .ok w := by
  rw [CINWidths.up, if_pos hu, ha]
  by_cases h : w' = w
  · simp only [hm, h, mul_two_eq, cinMsg_out, ne_eq, not_true, if_false]
  · rw [if_pos h]
    simp only [hm]
    exact cinMsg_error (by omega)

theorem cin_down_ok {l : CINWidths} {w : Nat} {p : ParamShape} (hs : l.downSize = w)
    (hm : l.msgDown = cinMsg (w * 2) w .pointwise) (hu : GoodDown w p) : l.down w p = .ok w := by
  rw [CINWidths.down]
  by_cases h : p.down = true
  · rw [if_pos h, hu h]
    simp only [hm, mul_two_eq, cinMsg_out]
  · rw [if_neg h, hs]

theorem run_without_top {net : CINNetWidths} (h : net.updateTop = false) (c : Nat)
    (data : List LevelShape) (convs : List (List CINWidths)) :
    net.run c data convs = runWidths (fun data => paramShapes data net.maxDim net.includeTop true)
      CINWidths.forward data convs := by
  induction convs generalizing c data with
  | nil => rfl
  | cons conv convs ih =>
    rw [CINNetWidths.run, runWidths]
    have hw : ∀ data ws, net.withTop data c ws = .ok ws := by
      intro data ws
      simp [CINNetWidths.withTop, h]
    simp only [hw, ok_bind, ih]

theorem setWidths_length {data data' : List LevelShape} {ws : List Nat}
    (h : setWidths data ws = .ok data') : data'.length = data.length := by
  induction data generalizing ws data' with
  | nil => cases ws <;> simp_all [setWidths]
  | cons l data ih =>
    cases ws with
    | nil => simp only [setWidths, ok_inj] at h; rw [h]
    | cons w ws =>
      obtain ⟨rest, hr, h⟩ := bind_eq_ok.1 h
      cases h
      simp [ih hr]

/-- Without two-cells there is nothing to update. -/
theorem run_short {net : CINNetWidths} (c : Nat) (data : List LevelShape) (h : data.length ≤ 2)
    (convs : List (List CINWidths)) :
    net.run c data convs = runWidths (fun data => paramShapes data net.maxDim net.includeTop true)
      CINWidths.forward data convs := by
  induction convs generalizing c data with
  | nil => rfl
  | cons conv convs ih =>
    rw [CINNetWidths.run, runWidths]
    have hw : ∀ ws, net.withTop data c ws = .ok ws := by
      intro ws
      rw [CINNetWidths.withTop, List.getElem?_eq_none h]
      split <;> rfl
    simp only [hw, ok_bind]
    refine bind_congr fun ps => bind_congr fun ws => ?_
    cases hs : setWidths data ws with
    | error e => rfl
    | ok d => simp only [ok_bind, ih (c + 1) d (by rw [setWidths_length hs]; exact h)]

/-- A run of `CIN0` or `EdgeCIN0` (without updates of the two-cells). `bad` is for the last level. -/
theorem cin_run {data : List LevelShape} {maxDim hidden : Nat} {top : Bool}
    {conv : Nat → List CINWidths} {bad : Nat → Prop} [DecidablePred bad] (hne : data ≠ [])
    (hlen : ∀ w, levelsOf maxDim data ≤ (conv w).length)
    (h : ∀ (w i : Nat) l, i < levelsOf maxDim data → (conv w)[i]? = some l →
      l.forward (levelParams (stamp (levelsOf maxDim data) w data)
        (levelAt (stamp (levelsOf maxDim data) w data) i) i maxDim top true) =
        if i + 1 = levelsOf maxDim data ∧ bad w then .error .runtime else .ok hidden) (k w : Nat) :
    runWidths (fun data => paramShapes data maxDim top true) CINWidths.forward
        (stamp (levelsOf maxDim data) w data)
        ((List.range k).map fun i => conv (layerDim w hidden i)) =
      if k ≠ 0 ∧ (bad w ∨ (2 ≤ k ∧ bad hidden)) then .error .runtime
      else .ok (stamp (levelsOf maxDim data) (if k = 0 then w else hidden) data,
        List.replicate k (List.replicate (levelsOf maxDim data) hidden)) := by
  refine runWidths_cond (conv := conv) (bad := bad) (levelsOf_le hne) (levelsOf_ne_zero _ _)
    (fun w => ?_) hlen k w
  refine ⟨_, paramShapes_of (stamp_ne hne), by simp [levelsOf_stamp], ?_⟩
  intro i l p hl hp
  obtain ⟨hi, rfl⟩ := params_at hp
  exact h w i l hi hl

theorem goodParams_x {data : List LevelShape} {maxDim w d : Nat} {top down : Bool} (hne : data ≠ [])
    (hd : d < levelsOf maxDim data) :
    (levelParams (stamp (levelsOf maxDim data) w data)
      (levelAt (stamp (levelsOf maxDim data) w data) d) d maxDim top down).x = some w :=
  (goodParams_stamp hne hd).x

theorem mem_cinConv {maxDim w hidden i : Nat} {l : CINWidths}
    (h : (cinConv maxDim w hidden .pointwise)[i]? = some l) :
    l.upSize = w ∧ l.downSize = w ∧ l.msgUp = cinMsg (w * 2) w .pointwise ∧
      l.msgDown = cinMsg (w * 2) w .pointwise ∧ l.update = cinUpdate w hidden .pointwise := by
  rw [List.eq_of_mem_replicate (List.mem_of_getElem? h)]
  exact ⟨rfl, rfl, rfl, rfl, rfl⟩

/-- `CIN0` on batches up to its maximal dimension. -/
theorem cin0_run {data : List LevelShape} {maxDim hidden : Nat} (hne : data ≠ [])
    (hv : NoLowerVertices data) (hup : UpTo data maxDim) (k w : Nat) :
    runWidths (fun data => paramShapes data maxDim true true) CINWidths.forward
        (stamp (levelsOf maxDim data) w data)
        ((List.range k).map fun i => cinConv maxDim (layerDim w hidden i) hidden .pointwise) =
      .ok (stamp (levelsOf maxDim data) (if k = 0 then w else hidden) data,
        List.replicate k (List.replicate (levelsOf maxDim data) hidden)) := by
  rw [cin_run (bad := fun _ => False) (conv := fun w => cinConv maxDim w hidden .pointwise) hne
    (fun w => by simp only [cinConv, List.length_replicate]; exact levelsOf_le_maxDim _ _)
    (fun w i l hi hl => ?_) k w]
  · simp
  · obtain ⟨h1, h2, h3, h4, h5⟩ := mem_cinConv hl
    rw [cin_forward (bad := False) (e := .runtime) (goodParams_x hne hi)
      (by rw [if_neg not_false]; exact cin_up_ok h1 h3 (goodUp_stamp hne hup hi))
      (cin_down_ok h2 h4 (goodDown_stamp hne hv hi)) h5]
    simp

/-- `CIN0` on batches with cells above its maximal dimension. -/
theorem cin0_run_top {data : List LevelShape} {maxDim hidden : Nat} {above : LevelShape} {w' : Nat}
    (hv : NoLowerVertices data) (hup : (levelAt data maxDim).up = true)
    (ha : data[maxDim + 1]? = some above) (hx : above.x = some w') (k w : Nat) :
    runWidths (fun data => paramShapes data maxDim true true) CINWidths.forward
        (stamp (levelsOf maxDim data) w data)
        ((List.range k).map fun i => cinConv maxDim (layerDim w hidden i) hidden .pointwise) =
      if k ≠ 0 ∧ (w' ≠ w ∨ (2 ≤ k ∧ w' ≠ hidden)) then .error .runtime
      else .ok (stamp (levelsOf maxDim data) (if k = 0 then w else hidden) data,
        List.replicate k (List.replicate (levelsOf maxDim data) hidden)) := by
  have hlt : maxDim + 1 < data.length := (List.getElem?_eq_some_iff.1 ha).1
  have hne : data ≠ [] := by rintro rfl; simp at hlt
  have hlev := levelsOf_top hlt
  rw [cin_run (bad := fun w => w' ≠ w) (conv := fun w => cinConv maxDim w hidden .pointwise) hne
    (fun w => by simp only [cinConv, List.length_replicate]; exact levelsOf_le_maxDim _ _)
    (fun w i l hi hl => ?_) k w]
  obtain ⟨h1, h2, h3, h4, h5⟩ := mem_cinConv hl
  refine cin_forward (goodParams_x hne hi) ?_ (cin_down_ok h2 h4 (goodDown_stamp hne hv hi)) h5
  by_cases hi' : i = maxDim
  · subst hi'
    rw [hlev]
    obtain ⟨g1, g2⟩ := up_top (w := w) (down := true) hup ha
    rw [cin_up_top h3 g1 (g2.trans hx)]
    simp
  · rw [if_neg (by omega)]
    exact cin_up_ok h1 h3 (goodUp_stamp' (Or.inr rfl) (Or.inl (by omega)))

end Verif
