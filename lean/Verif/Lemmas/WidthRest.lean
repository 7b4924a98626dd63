import Verif.Lemmas.WidthTop

/-!
# Helper lemmas for the widths: `EdgeCIN0` and the networks without cells of higher dimension
-/

namespace Verif

/-! ### `CIN0` and `EdgeCIN0` after the layers -/

theorem makeJump_ok {mode : Option String} (h : okJump mode) : ∃ j, makeJump mode = .ok j := by
  rcases makeJump_cases h with ⟨_, h⟩ | ⟨_, h⟩ | ⟨_, h⟩ <;> exact ⟨_, h⟩

theorem lin_out {i h c : Nat} {act : Mod} (ha : act = .pointwise) :
    seqOut [.linear i h, act, .linear h c] i = .ok c := by
  subst ha
  simp [seqOut, Mod.out, ok_bind]

theorem cin_tail {net : CINNetWidths} {mode : Option String} {k n hidden classes : Nat}
    {data data' : List LevelShape} (hk : k ≠ 0) (hm : okJump mode)
    (hj : makeJump mode = .ok net.jump) (h0 : n ≠ 0) (hn : n ≤ net.maxDim + 1)
    (h1 : net.lin1 = .linear (lin1Input mode k hidden) hidden) (hact : net.act = .pointwise)
    (h2 : net.lin2 = .linear hidden classes)
    (hrun : net.run 0 data net.convs = .ok (data', List.replicate k (List.replicate n hidden))) :
    net.forward data = .ok classes := by
  obtain ⟨j', hj', hfin⟩ := finalWidths_jump (start := none) (n := n) (h := hidden) hk hm
  rw [hj] at hj'
  obtain rfl := ok_inj.1 hj'
  rw [CINNetWidths.forward, hrun, ok_bind, hfin, ok_bind, poolWidths_replicate h0 hn, ok_bind,
    sumPooled, listGet_replicate (by omega), ok_bind, h1, h2]
  exact lin_out hact

theorem cin_tail_error {net : CINNetWidths} {data : List LevelShape} {e : PyErr}
    (hrun : net.run 0 data net.convs = .error e) : net.forward data = .error e := by
  rw [CINNetWidths.forward, hrun]; rfl

theorem goodParams_n {data : List LevelShape} {maxDim w d n : Nat} {top down : Bool}
    (hlt : d < data.length) (hd : d < n) :
    GoodParams w (levelParams (stamp n w data) (levelAt (stamp n w data) d) d maxDim top down) := by
  constructor
  · rw [levelParams, levelAt_stamp_lt hlt hd]
  · simp only [levelParams, levelAt_stamp_lt hlt hd, belowWidth_stamp hlt.le hd.le]
    cases (levelAt data d).boundary <;> by_cases h0 : d = 0 <;> simp [h0]

theorem goodDown_n {data : List LevelShape} {maxDim w d n : Nat} {top : Bool}
    (hv : NoLowerVertices data) (hlt : d < data.length) (hd : d < n) :
    GoodDown w (levelParams (stamp n w data) (levelAt (stamp n w data) d) d maxDim top true) := by
  intro hdn
  simp only [levelParams, levelAt_stamp_lt hlt hd, Bool.true_and] at hdn ⊢
  rw [hdn, if_pos rfl, belowWidth_stamp hlt.le hd.le, if_neg]
  rintro rfl
  exact absurd (hv _ (getElem?_levelAt hlt)) (by simp [hdn])

theorem down_zero {data : List LevelShape} {maxDim w n : Nat} {top : Bool}
    (hv : NoLowerVertices data) (hlt : 0 < data.length) (hd : 0 < n) :
    (levelParams (stamp n w data) (levelAt (stamp n w data) 0) 0 maxDim top true).down = false := by
  simp only [levelParams, levelAt_stamp_lt hlt hd, Bool.true_and]
  exact hv _ (getElem?_levelAt hlt)

theorem edgeCIN_level {data : List LevelShape} {hidden w n i : Nat} {top : Bool} {l : CINWidths}
    (hv : NoLowerVertices data) (hlt : i < data.length) (hn : i < n)
    (hl : (edgeCINConv w hidden .pointwise top)[i]? = some l) {e : PyErr} {bad : Prop} [Decidable bad]
    (hu : l.up w (levelParams (stamp n w data) (levelAt (stamp n w data) i) i 1 top true) =
      if bad then .error e else .ok w) :
    l.forward (levelParams (stamp n w data) (levelAt (stamp n w data) i) i 1 top true) =
      if bad then .error e else .ok hidden := by
  have hx := (goodParams_n (maxDim := 1) (w := w) (top := top) (down := true) hlt hn).x
  match i, hl with
  | 0, hl =>
    obtain rfl : _ = l := by simpa [edgeCINConv] using hl
    refine cin_forward hx hu ?_ rfl
    rw [CINWidths.down, down_zero hv hlt hn]
    rfl
  | 1, hl =>
    obtain rfl : _ = l := by simpa [edgeCINConv] using hl
    exact cin_forward hx hu (cin_down_ok rfl rfl (goodDown_n hv hlt hn)) rfl
  | i + 2, hl => simp [edgeCINConv] at hl

theorem edgeCIN_up {data : List LevelShape} {hidden w n i : Nat} {top : Bool} {l : CINWidths}
    (hl : (edgeCINConv w hidden .pointwise top)[i]? = some l)
    (hn : i + 1 < n ∨ data.length ≤ i + 1 ∨ (i = 1 ∧ top = false)) :
    l.up w (levelParams (stamp n w data) (levelAt (stamp n w data) i) i 1 top true) = .ok w := by
  match i, hl with
  | 0, hl =>
    obtain rfl : _ = l := by simpa [edgeCINConv] using hl
    exact cin_up_ok rfl rfl (goodUp_stamp' (Or.inl (by omega)) (by omega))
  | 1, hl =>
    obtain rfl : _ = l := by simpa [edgeCINConv] using hl
    cases top with
    | true =>
      exact cin_up_ok rfl rfl (goodUp_stamp' (Or.inr rfl) (by
        rcases hn with h | h | h
        · exact Or.inl h
        · exact Or.inr h
        · exact absurd h.2 (by simp)))
    | false =>
      have : (levelParams (stamp n w data) (levelAt (stamp n w data) 1) 1 1 false true).upAttr = none := by
        simp only [levelParams, upShape]
        split <;> simp
      rw [CINWidths.up, this]
      simp [cinMsg_out]
  | i + 2, hl => simp [edgeCINConv] at hl

/-- `EdgeCIN0` that does not use the two-cells, or on batches without them. -/
theorem edgeCIN_run {data : List LevelShape} {hidden : Nat} {top : Bool} (hne : data ≠ [])
    (hv : NoLowerVertices data) (h : top = false ∨ data.length ≤ 2) (k w : Nat) :
    runWidths (fun data => paramShapes data 1 top true) CINWidths.forward
        (stamp (levelsOf 1 data) w data)
        ((List.range k).map fun i => edgeCINConv (layerDim w hidden i) hidden .pointwise top) =
      .ok (stamp (levelsOf 1 data) (if k = 0 then w else hidden) data,
        List.replicate k (List.replicate (levelsOf 1 data) hidden)) := by
  rw [cin_run (bad := fun _ => False) (conv := fun w => edgeCINConv w hidden .pointwise top) hne
    (fun w => by simpa [edgeCINConv] using levelsOf_le_maxDim 1 data)
    (fun w i l hi hl => ?_) k w]
  · simp
  · have h1 := levelsOf_le (maxDim := 1) hne
    have h2 := levelsOf_le_maxDim 1 data
    have hl1 : levelsOf 1 data = min 1 (data.length - 1) + 1 := rfl
    rw [edgeCIN_level (bad := False) (e := .runtime) hv (by omega) hi hl]
    · simp
    · rw [if_neg not_false]
      refine edgeCIN_up hl ?_
      rcases h with h | h
      · rcases Nat.eq_zero_or_pos i with h0 | h0
        · omega
        · exact Or.inr (Or.inr ⟨by omega, h⟩)
      · omega

/-- `EdgeCIN0` that uses the two-cells but does not update them. -/
theorem edgeCIN_run_top {data : List LevelShape} {hidden : Nat} {above : LevelShape} {w' : Nat}
    (hv : NoLowerVertices data) (hup : (levelAt data 1).up = true)
    (ha : data[2]? = some above) (hx : above.x = some w') (k w : Nat) :
    runWidths (fun data => paramShapes data 1 true true) CINWidths.forward
        (stamp (levelsOf 1 data) w data)
        ((List.range k).map fun i => edgeCINConv (layerDim w hidden i) hidden .pointwise true) =
      if k ≠ 0 ∧ (w' ≠ w ∨ (2 ≤ k ∧ w' ≠ hidden)) then .error .runtime
      else .ok (stamp (levelsOf 1 data) (if k = 0 then w else hidden) data,
        List.replicate k (List.replicate (levelsOf 1 data) hidden)) := by
  have hlt : 2 < data.length := (List.getElem?_eq_some_iff.1 ha).1
  have hne : data ≠ [] := by rintro rfl; simp at hlt
  have hlev : levelsOf 1 data = 2 := levelsOf_top hlt
  rw [cin_run (bad := fun w => w' ≠ w) (conv := fun w => edgeCINConv w hidden .pointwise true) hne
    (fun w => by simpa [edgeCINConv] using levelsOf_le_maxDim 1 data)
    (fun w i l hi hl => ?_) k w]
  refine edgeCIN_level hv (by omega) hi hl ?_
  by_cases hi' : i = 1
  · subst hi'
    rw [hlev]
    obtain ⟨g1, g2⟩ := up_top (maxDim := 1) (w := w) (down := true) hup ha
    obtain rfl : _ = l := by simpa [edgeCINConv] using hl
    rw [cin_up_top rfl g1 (g2.trans hx)]
    simp
  · rw [if_neg (by omega)]
    exact edgeCIN_up hl (Or.inl (by omega))

theorem convWidths_ok {Lv : Type} {forward : Lv → ParamShape → Py Nat} {levels : List Lv}
    {ps : List ParamShape} {o : Nat} (hlen : ps.length ≤ levels.length) (hne : ps ≠ [])
    (h : ∀ (i : Nat) l p, levels[i]? = some l → ps[i]? = some p → forward l p = .ok o) :
    convWidths forward levels ps = .ok (List.replicate ps.length o) := by
  rw [convWidths_cond (bad := False) (e := .type) (o := o) hlen hne
    (fun i l p hl hp => by simp [h i l p hl hp]), if_neg not_false]

/-- `EdgeCIN0` that updates the two-cells. -/
theorem edgeCIN_run_update {net : CINNetWidths} {data : List LevelShape} {hidden : Nat}
    (hmax : net.maxDim = 1) (htop : net.includeTop = true) (hupd : net.updateTop = true)
    (hv : NoLowerVertices data) (h3 : 2 < data.length) :
    ∀ (k c w : Nat), c + k = net.convs.length →
      (∀ i, i + 1 < k → net.tops[c + i]? =
        some (cinUpdate (layerDim w hidden i) hidden .pointwise)) →
      ∃ data', net.run c (stamp 3 w data)
        ((List.range k).map fun i => edgeCINConv (layerDim w hidden i) hidden .pointwise true) =
      .ok (data', List.replicate k (List.replicate 2 hidden)) := by
  have hne : data ≠ [] := by rintro rfl; simp at h3
  have hlev : levelsOf 1 data = 2 := levelsOf_top h3
  intro k
  induction k with
  | zero => intro c w _ _; exact ⟨_, rfl⟩
  | succ k ih =>
    intro c w hck htops
    rw [List.range_succ_eq_map, List.map_cons, List.map_map, CINNetWidths.run, hmax, htop,
      paramShapes_of (stamp_ne hne), ok_bind, convWidths_ok (o := hidden)]
    rotate_left
    · simp [levelsOf_stamp, hlev, edgeCINConv]
    · simp [levelsOf_stamp, hlev]
    · intro i l p hl hp
      obtain ⟨hi, rfl⟩ := params_at hp
      have hl : (edgeCINConv w hidden .pointwise true)[i]? = some l := hl
      rw [hlev] at hi
      rw [edgeCIN_level (bad := False) (e := .runtime) hv (by omega) (by omega) hl (by
        rw [if_neg not_false]
        exact edgeCIN_up hl (Or.inl (by omega)))]
      simp
    · simp only [List.length_map, List.length_range, levelsOf_stamp, hlev, ok_bind]
      by_cases hk : k = 0
      · subst hk
        have : ¬ (net.updateTop && decide (c < net.convs.length - 1)) = true := by
          simp; omega
        rw [CINNetWidths.withTop, if_neg this, ok_bind]
        obtain ⟨d', hd'⟩ : ∃ d', setWidths (stamp 3 w data) (List.replicate 2 hidden) = .ok d' :=
          ⟨_, setWidths_replicate (by rw [stamp_length]; omega)⟩
        rw [hd', ok_bind]
        exact ⟨_, rfl⟩
      · have hc : (net.updateTop && decide (c < net.convs.length - 1)) = true := by
          simp [hupd]; omega
        have ht := htops 0 (by omega)
        have htop' : topOut net.tops c (some w) = .ok hidden := by
          simp only [Nat.add_zero] at ht
          rw [topOut, listGet, ht]
          exact cinUpdate_out _ _
        rw [CINNetWidths.withTop, if_pos hc, stamp_lt (by omega), getElem?_levelAt h3]
        simp only [Option.map_some, htop', ok_bind]
        have : List.replicate 2 hidden ++ [hidden] = List.replicate 3 hidden := rfl
        rw [pure_bind, this, setWidths_stamp (by omega), ok_bind]
        obtain ⟨d', hd'⟩ := ih (c + 1) hidden (by omega) (fun i hi => by
          have := htops (i + 1) (by omega)
          rw [show c + 1 + i = c + (i + 1) by omega, this]
          simp [layerDim])
        have hmap : (List.range k).map ((fun i => edgeCINConv (layerDim w hidden i) hidden .pointwise true)
            ∘ Nat.succ) = (List.range k).map fun i =>
              edgeCINConv (layerDim hidden hidden i) hidden .pointwise true := by
          apply List.map_congr_left
          intro i _
          simp [layerDim]
        rw [hmap, hd']
        exact ⟨d', rfl⟩

end Verif
