import Verif.Lemmas.WidthRest

/-!
# Helper lemmas for the widths: networks on vertices and edges, graph networks
-/

namespace Verif

/-! ### `Dummy` and `MessagePassingAgnostic` -/

theorem allColumns_stamp {data : List LevelShape} {w : Nat} (h : AllColumns data w) (n : Nat) :
    stamp n w data = data :=
  stamp_self fun _ _ l hl => h.2 l (List.mem_of_getElem? hl)

theorem addWidths_sum (w : Nat) {u : Nat} (h : u = w ∨ u = 1) : addWidths w u = .ok w := by
  rcases h with rfl | rfl
  · exact addWidths_self _
  · exact addWidths_one _

theorem dummyMsg_ok {x : Nat} {index : Bool} {attr : Option Nat} (h : index = true → attr = some x) :
    ∃ u, dummyMsg 1 x index attr = .ok u ∧ (u = x ∨ u = 1) := by
  cases index with
  | true => exact ⟨x, by simp [dummyMsg, h rfl, addWidths_self], Or.inl rfl⟩
  | false => exact ⟨1, by simp [dummyMsg], Or.inr rfl⟩

theorem dummyForward_ok {w : Nat} {p : ParamShape} (hx : p.x = some w) (hu : GoodUp w p)
    (hd : GoodDown w p) : dummyForward () p = .ok w := by
  obtain ⟨u, h1, h2⟩ := dummyMsg_ok hu
  obtain ⟨d, h3, h4⟩ := dummyMsg_ok hd
  rw [dummyForward, hx]
  simp only [needX, ok_bind, h1, h3, addWidths_sum w h2, addWidths_sum w h4, addWidths_one]

theorem dummy_run {data : List LevelShape} {w maxDim : Nat} (h : AllColumns data w)
    (hv : NoLowerVertices data) (hm : levelsOf 2 data ≤ maxDim + 1) (k : Nat) :
    runWidths (fun data => paramShapes data) dummyForward data
      (List.replicate k (List.replicate (maxDim + 1) ())) =
      .ok (data, List.replicate k (List.replicate (levelsOf 2 data) w)) := by
  induction k with
  | zero => rfl
  | succ k ih =>
    have hlen := levelsOf_le (maxDim := 2) h.1
    rw [List.replicate_succ, runWidths, paramShapes_of h.1, ok_bind, convWidths_ok (o := w)]
    · simp only [List.length_map, List.length_range, ok_bind]
      rw [setWidths_replicate hlen, allColumns_stamp h, ok_bind, ih, ok_bind]
      rfl
    · simpa using hm
    · simp [levelsOf_ne_zero]
    · intro i l p _ hp
      have hs := allColumns_stamp h data.length
      rw [← hs] at hp
      obtain ⟨hi, rfl⟩ := params_at hp
      have hi' : i < data.length := lt_of_lt_of_le hi hlen
      exact dummyForward_ok (goodParams_n hi' hi').x
        (goodUp_stamp' (Or.inr rfl) (by omega)) (goodDown_n hv hi' hi')

theorem dummy_ok {numInput numClasses numLayers maxDim : Nat} {readout : String}
    {data : List LevelShape} (hr : okReadout readout) (hk : numLayers ≠ 0)
    (h : AllColumns data numInput) (hv : NoLowerVertices data) :
    dummyWidths numInput numClasses numLayers maxDim readout data =
      if min 2 (data.length - 1) ≤ maxDim then .ok numClasses else .error .assertion := by
  obtain ⟨p, hp⟩ := getPoolingFn_named hr
  have hlev : levelsOf 2 data = min 2 (data.length - 1) + 1 := rfl
  by_cases hm : min 2 (data.length - 1) ≤ maxDim
  · rw [if_pos hm, dummyWidths, hp, ok_bind, dummy_run h hv (by omega), ok_bind,
      finalWidths_none hk, ok_bind, poolWidths_replicate (levelsOf_ne_zero _ _) (by omega), ok_bind,
      sumPooled, listGet_replicate (by omega), ok_bind, linear_out]
  · rw [if_neg hm, dummyWidths, hp, ok_bind]
    obtain ⟨k, rfl⟩ := Nat.exists_eq_succ_of_ne_zero hk
    have hc : ¬ ((List.range (levelsOf 2 data)).map fun d =>
        levelParams data (levelAt data d) d 2 true true).length ≤
        (List.replicate (maxDim + 1) ()).length := by
      simp; omega
    rw [List.replicate_succ, runWidths, paramShapes_of h.1, ok_bind, convWidths, decide_eq_false hc]
    rfl

theorem agnostic_ok {numInput numClasses hidden maxDim : Nat} {nonlinearity readout : String}
    {data : List LevelShape} (hn : okNonlinearity nonlinearity) (hr : okReadout readout)
    (h : Columns data maxDim numInput) :
    agnosticWidths numInput numClasses hidden maxDim nonlinearity readout data = .ok numClasses := by
  obtain ⟨p, hp⟩ := getPoolingFn_named hr
  have hmax := levelsOf_le_maxDim maxDim data
  have hlen := levelsOf_le (maxDim := maxDim) h.1
  rw [agnosticWidths, getNonlinearity_ok hn, ok_bind, paramShapes_of h.1, ok_bind,
    mapE_map_ok (b := hidden), ok_bind, hp, ok_bind]
  · have : List.replicate (((List.range (levelsOf maxDim data)).map fun d =>
        levelParams data (levelAt data d) d maxDim true false).zipIdx).length hidden =
        List.replicate (levelsOf maxDim data) hidden := by simp
    rw [this, poolWidths_replicate (levelsOf_ne_zero _ _) hmax, ok_bind,
      mapE_map_ok (b := hidden) (by
        intro a ha
        rw [List.eq_of_mem_replicate ha]
        simp [seqOut, Mod.out, ok_bind]), ok_bind]
    simp only [List.length_replicate, sumPooled]
    rw [listGet_replicate (by omega), ok_bind, linear_out]
  · rintro ⟨p, d⟩ hpd
    rw [List.mem_zipIdx_iff_getElem?] at hpd
    rw [List.getElem?_map] at hpd
    obtain ⟨d', hd', rfl⟩ := Option.map_eq_some_iff.1 hpd
    obtain ⟨hi, hdi⟩ := List.getElem?_eq_some_iff.1 hd'
    simp only [List.length_range] at hi
    simp only [List.getElem_range] at hdi
    subst hdi
    have hx : (levelAt data d).x = some numInput :=
      h.2 d (by omega) _ (getElem?_levelAt (by omega))
    simp only [lin0Out]
    rw [listGet_replicate (by omega), ok_bind]
    simp [levelParams, hx, seqOut, Mod.out, ok_bind]

/-! ### `EdgeOrient` and `EdgeMPNN` -/

/-- A layer of `EdgeOrient` or `EdgeMPNN`. -/
def orientLayer (upMod : Bool) (w hidden : Nat) : OrientWidths where
  upSize := w
  downSize := w
  updateUp := if upMod then some (.linear w hidden) else none
  updateDown := .linear w hidden
  update := .linear w hidden
  act := .pointwise

theorem orient_forward (upMod orient : Bool) (w i hidden : Nat) :
    (orientLayer upMod i hidden).forward orient w =
      if w = i then .ok hidden else .error .runtime := by
  have hm : orientMsg orient w = .ok w := by
    cases orient <;> simp [orientMsg, addWidths_one]
  by_cases h : w = i
  · subst h
    rw [if_pos rfl, OrientWidths.forward, hm]
    cases upMod <;> simp [orientLayer, Mod.out, ok_bind, addUp, addWidths_self]
  · rw [if_neg h, OrientWidths.forward, hm]
    simp [orientLayer, Mod.out, ok_bind, h]

theorem orient_run (upMod orient : Bool) (hidden : Nat) (k w : Nat) :
    runOrientWidths orient w
      ((List.range k).map fun i => orientLayer upMod (layerDim w hidden i) hidden) =
      .ok (if k = 0 then w else hidden) := by
  induction k generalizing w with
  | zero => rfl
  | succ k ih =>
    rw [List.range_succ_eq_map, List.map_cons, List.map_map, runOrientWidths, orient_forward,
      if_pos (by simp [layerDim]), ok_bind]
    have hmap : (List.range k).map ((fun i => orientLayer upMod (layerDim w hidden i) hidden) ∘ Nat.succ) =
        (List.range k).map fun i => orientLayer upMod (layerDim hidden hidden i) hidden := by
      apply List.map_congr_left
      intro i _
      simp [layerDim]
    rw [hmap, ih hidden]
    simp

theorem edgeNet_ok {upMod orient : Bool} {a : EdgeArgs} (ha : a.Named) (w : Nat) :
    edgeNetWidths upMod orient a w =
      if a.numLayers = 0 then .error .name
      else if w = a.numInput then .ok a.numClasses else .error .runtime := by
  obtain ⟨p, hp⟩ := getPoolingFn_named ha.readout
  obtain ⟨j, hj⟩ := makeJump_ok ha.jump
  rw [edgeNetWidths, hp, ok_bind, mapE_ok (g := fun i =>
    orientLayer upMod (layerDim a.numInput a.hidden i) a.hidden) (by
      intro i _
      rw [getNonlinearity_ok ha.nonlinearity, ok_bind]
      rfl), ok_bind, hj, ok_bind]
  by_cases hk : a.numLayers = 0
  · rw [if_pos hk, if_pos hk]
  · rw [if_neg hk, if_neg hk]
    by_cases hw : w = a.numInput
    · subst hw
      rw [if_pos rfl, orient_run, ok_bind, if_neg hk, lin_out rfl]
    · rw [if_neg hw]
      obtain ⟨k, hk'⟩ := Nat.exists_eq_succ_of_ne_zero hk
      rw [hk', List.range_succ_eq_map, List.map_cons, runOrientWidths, orient_forward,
        if_neg (by simpa [layerDim] using hw)]
      rfl

/-! ### Graph networks -/

theorem ginMod_out {norm : Nat → Mod} (hn : NormOk norm) (w i h : Nat) :
    seqOut (ginMod i h norm .pointwise) w = if w = i then .ok h else .error .runtime := by
  by_cases hw : w = i
  · subst hw
    rw [if_pos rfl]
    exact updateNet_out hn w h
  · rw [if_neg hw, ginMod, seqOut, Mod.out, if_neg hw]
    rfl

theorem normOk_norm : NormOk .norm := fun n => by simp [Mod.out]

theorem gin_run {norm : Nat → Mod} (hn : NormOk norm) (h k : Nat) :
    runGINWidths h (List.replicate k (ginMod h h norm .pointwise)) = .ok (List.replicate k h) := by
  induction k with
  | zero => rfl
  | succ k ih =>
    rw [List.replicate_succ, runGINWidths, ginMod_out hn, if_pos rfl, ok_bind, ih, ok_bind]
    rfl

theorem getLastD_replicate' (k h : Nat) : (List.replicate k h).getLastD h = h := by
  cases k with
  | zero => rfl
  | succ k => simp [List.getLastD_eq_getLast?, List.getLast?_replicate]

theorem jump_out {mode : Option String} (hm : okJump mode) {k h : Nat} (hk : k ≠ 0) {j : Jump}
    (hj : makeJump mode = .ok (some j)) : j.out (List.replicate k h) = .ok (lin1Input mode k h) := by
  obtain ⟨k, rfl⟩ := Nat.exists_eq_succ_of_ne_zero hk
  rcases makeJump_cases hm with ⟨rfl, h1⟩ | ⟨rfl, h1⟩ | ⟨rfl, h1⟩
  · rw [h1] at hj; cases hj
  · rw [h1] at hj
    cases hj
    simp [List.replicate_succ, Jump.out, lin1Input, Nat.succ_mul, Nat.add_comm]
  · rw [h1] at hj
    cases hj
    simp [List.replicate_succ, Jump.out, lin1Input]

/-- Without layers there is still one; `'cat'` then has the wrong size (unless `hidden` is zero). -/
theorem gin_ok {numFeatures numLayers hidden numClasses : Nat} {mode : Option String}
    {readout nonlinearity : String} (hr : okReadout readout) (hn : okNonlinearity nonlinearity)
    (hm : okJump mode) (hk : numLayers ≠ 0 ∨ mode ≠ some "cat") (w : Nat) :
    ginWidths numFeatures numLayers hidden numClasses mode readout nonlinearity w =
      if w = numFeatures then .ok numClasses else .error .runtime := by
  obtain ⟨p, hp⟩ := getPoolingFn_named hr
  obtain ⟨j, hj⟩ := makeJump_ok hm
  rw [ginWidths, hp, ok_bind, getNonlinearity_ok hn, ok_bind, hj, ok_bind, ginMod_out normOk_norm]
  by_cases hw : w = numFeatures
  · rw [if_pos hw, if_pos hw, ok_bind, gin_run normOk_norm, ok_bind]
    cases j with
    | none =>
      have hmode : mode = none := by
        rcases makeJump_cases hm with ⟨h, _⟩ | ⟨_, h⟩ | ⟨_, h⟩
        · exact h
        · rw [h] at hj; cases hj
        · rw [h] at hj; cases hj
      simp only [getLastD_replicate', ok_bind, hmode, lin1Input, reduceCtorEq, if_false]
      exact lin_out rfl
    | some j =>
      have hl : hidden :: List.replicate (numLayers - 1) hidden =
          List.replicate (numLayers - 1 + 1) hidden := rfl
      have hin : lin1Input mode (numLayers - 1 + 1) hidden = lin1Input mode numLayers hidden := by
        rcases hk with hk | hk
        · rw [Nat.sub_add_cancel (Nat.pos_of_ne_zero hk)]
        · simp [lin1Input, hk]
      simp only [hl, jump_out hm (Nat.succ_ne_zero _) hj, ok_bind, hin]
      exact lin_out rfl
  · rw [if_neg hw, if_neg hw]
    rfl

theorem ringGIN_ok {numFeatures numLayers hidden numClasses : Nat} {nonlinearity graphNorm : String}
    (hn : okNonlinearity nonlinearity) (hg : okNorm graphNorm) (w : Nat) :
    ringGINWidths numFeatures numLayers hidden numClasses nonlinearity graphNorm w =
      if w = numFeatures then .ok numClasses else .error .runtime := by
  obtain ⟨norm, hnorm, hok⟩ := getGraphNorm_ok hg
  rw [ringGINWidths, getNonlinearity_ok hn, ok_bind, hnorm, ok_bind, Mod.out]
  by_cases hw : w = numFeatures
  · rw [if_pos hw, if_pos hw, ok_bind, ginMod_out hok, if_pos rfl, ok_bind, gin_run hok, ok_bind,
      getLastD_replicate', linear_out]
  · rw [if_neg hw, if_neg hw]
    rfl

theorem ringSparse_ok {numInput numClasses numLayers hidden maxDim : Nat}
    {nonlinearity graphNorm : String} {cob : Bool} {data : List LevelShape}
    (hn : okNonlinearity nonlinearity) (hg : okNorm graphNorm) (hk : numLayers ≠ 0)
    (h : Columns data maxDim numInput) (hu : cob = true → UpTo data maxDim) :
    ringSparseWidths numInput numClasses numLayers hidden maxDim nonlinearity graphNorm cob data =
      .ok numClasses := by
  obtain ⟨norm, hnorm, hok⟩ := getGraphNorm_ok hg
  have hinit : initNodes (.linear numInput numInput) data = .ok data := by
    cases data with
    | nil => exact absurd rfl h.1
    | cons v rest =>
      have := h.2 0 (Nat.zero_le _) v rfl
      cases v
      simp only at this
      subst this
      simp [initNodes, Mod.out, ok_bind]
  have hrun := run_fits (sparse_fits maxDim hidden cob) hok h.1 hu numLayers numInput
  rw [columns_stamp h] at hrun
  rw [ringSparseWidths, getNonlinearity_ok hn, ok_bind, hnorm, ok_bind, hinit, ok_bind, hrun, ok_bind,
    finalWidths_none hk, ok_bind, listGet_replicate (Nat.pos_of_ne_zero (levelsOf_ne_zero _ _)),
    ok_bind, linear_out]

theorem gine_run {attr hidden : Nat} {norm : Nat → Mod} (hn : NormOk norm) (k w : Nat)
    (hw : w = attr) :
    runGINEWidths attr w ((List.range k).map fun i =>
      ginMod (layerDim w hidden i) hidden norm .pointwise) =
      if 2 ≤ k ∧ hidden ≠ attr then .error .assertion else .ok (if k = 0 then w else hidden) := by
  induction k generalizing w with
  | zero => rfl
  | succ k ih =>
    rw [List.range_succ_eq_map, List.map_cons, List.map_map, runGINEWidths, gineOut, hw,
      beq_self_eq_true, pyAssert, if_pos rfl, ok_bind, ginMod_out hn, if_pos (by simp [layerDim]),
      ok_bind]
    have hmap : (List.range k).map ((fun i => ginMod (layerDim attr hidden i) hidden norm .pointwise)
        ∘ Nat.succ) = (List.range k).map fun i =>
          ginMod (layerDim hidden hidden i) hidden norm .pointwise := by
      apply List.map_congr_left
      intro i _
      simp [layerDim]
    rw [hmap]
    cases k with
    | zero => simp [runGINEWidths]
    | succ k =>
      by_cases hh : hidden = attr
      · rw [ih hidden hh]
        simp [hh]
      · rw [if_pos ⟨by omega, hh⟩, List.range_succ_eq_map, List.map_cons, runGINEWidths, gineOut]
        simp [pyAssert, hh]

theorem embedGIN_ok {a : EmbedArgs} (hr : okReadout a.readout) (hn : okNonlinearity a.nonlinearity)
    {data : List LevelShape} (hraw : RawFeatures data 1 1 a.embedEdge) (hb : HasBoundaries data 1) :
    embedGINWidths a data =
      if a.numLayers = 1 ∨ a.embed = a.hidden then .ok a.numClasses
      else if a.numLayers = 0 then .error .runtime else .error .assertion := by
  obtain ⟨p, hp⟩ := getPoolingFn_named hr
  have hne := raw_ne hraw
  have h0 : 0 < data.length := List.length_pos_of_ne_nil hne
  have hlev : levelsOf 1 data = min 1 (data.length - 1) + 1 := rfl
  have hinit := init_ok (embedding_fits a.embed a.embedEdge) hraw hb (by omega)
    (f := fun d => levelParams data (levelAt data d) d 1 true false) (fun d _ => rfl) (fun d _ => rfl)
  rw [embedGINWidths, hp, ok_bind, getNonlinearity_ok hn, ok_bind, checkScalars_ok hraw, ok_bind,
    paramShapes_of hne, ok_bind, hinit, ok_bind, setWidths_replicate (levelsOf_le hne), ok_bind,
    paramShapes_of (stamp_ne hne), ok_bind, levelsOf_stamp]
  have hlev0 : levelsOf 0 data = 1 := by unfold levelsOf; omega
  rw [hlev0]
  have hg : listGet ((List.range 1).map fun d => levelParams (stamp (levelsOf 1 data) a.embed data)
      (levelAt (stamp (levelsOf 1 data) a.embed data) d) d 0 true false) 0 =
      .ok (levelParams (stamp (levelsOf 1 data) a.embed data)
        (levelAt (stamp (levelsOf 1 data) a.embed data) 0) 0 0 true false) := rfl
  have hx := (goodParams_n (n := levelsOf 1 data) (maxDim := 0) (w := a.embed) (top := true)
    (down := false) h0 (by omega)).x
  have hu : GoodUp a.embed (levelParams (stamp (levelsOf 1 data) a.embed data)
      (levelAt (stamp (levelsOf 1 data) a.embed data) 0) 0 0 true false) :=
    goodUp_stamp' (Or.inr rfl) (by omega)
  rw [hg, ok_bind, hx]
  have hattr : gineAttr (levelParams (stamp (levelsOf 1 data) a.embed data)
      (levelAt (stamp (levelsOf 1 data) a.embed data) 0) 0 0 true false) a.embed = .ok a.embed := by
    rw [gineAttr]
    split
    · next h => rw [hu h]
    · rfl
  simp only [needX, ok_bind]
  rw [hattr, ok_bind, gine_run normOk_norm _ _ rfl]
  by_cases hh : a.embed = a.hidden
  · rw [if_neg (by simp [hh]), ok_bind, if_pos (Or.inr hh), hh]
    simp [lin_out rfl]
  · have hh' : a.hidden ≠ a.embed := fun e => hh e.symm
    match hk : a.numLayers with
    | 0 => simp [hh, ok_bind, seqOut, Mod.out]
    | 1 => simp [ok_bind, lin_out rfl]
    | k + 2 => simp [hh, hh']

end Verif
