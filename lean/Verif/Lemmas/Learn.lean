import Verif.Spec.Learn
import Verif.Lemmas.TrainMode

/-!
# Lemmas for experiments with networks
-/

namespace Verif

variable {𝕜 R L S : Type} [Field 𝕜] [AddCommMonoid R] [Module 𝕜 R]

theorem NormNet.after_eq (mo : Momentum R) (n : NormNet R) (rows : List R) :
    n.after 𝕜 mo rows = n.moved 𝕜 mo rows := by
  cases n with
  | rowwise f => cases rows <;> rfl
  | batch dev scale a b =>
    cases rows with
    | nil => rfl
    | cons x rows => rfl

theorem UpdateNet.after_eq (mo : Momentum R) (u : UpdateNet R) (rows : List R)
    (h : ¬ (u.isBatch && rows.length == 1) = true) :
    u.after 𝕜 mo rows = .ok (u.moved 𝕜 mo rows) := by
  unfold UpdateNet.after
  rw [NormNet.train_eq, if_neg (by
    simp only [UpdateNet.isBatch, Bool.and_eq_true, Bool.or_eq_true, List.length_map] at *
    exact fun h' => h ⟨.inl h'.1, h'.2⟩), ok_bind, NormNet.after_eq, NormNet.after_eq, pure_eq_ok, ok_inj]
  simp only [List.map_map]
  rfl

/-- A pass in training mode moves the running statistics as the rows say. -/
def Moves {Lt : Type} (after : Lt → MPParams R → Py Lt) (isBatch : Lt → Bool)
    (moved : Lt → List (View R) → Nat → Lt) : Prop :=
  (∀ (l : Lt) (v : View R) (d : Nat) (p : MPParams R), v.InRange → ParamsOf v d true false p →
    ¬ (isBatch l && (v.X d).length == 1) = true → after l p = .ok (moved l [v] d)) ∧
  ∀ (l : Lt) (v : View R) (d : Nat), v.X d = [] → moved l [v] d = l

theorem NormNet.moved_nil (mo : Momentum R) (n : NormNet R) : n.moved 𝕜 mo [] = n := by
  cases n <;> rfl

theorem UpdateNet.moved_nil (mo : Momentum R) (u : UpdateNet R) : u.moved 𝕜 mo [] = u := by
  simp only [UpdateNet.moved, List.map_nil, NormNet.moved_nil]

theorem rowsOf_nil {v : View R} {d : Nat} (h : v.X d = []) (r : Rule R) : rowsOf [v] r d = [] := by
  rw [rowsOf_one, h]; rfl

theorem moves_sparse (mo : Momentum R) : Moves (R := R) (SparseTrain.after (𝕜 := 𝕜) mo) SparseTrain.isBatch
    (SparseTrain.moved mo) := by
  constructor
  · intro l v d p hv hp hno
    have hu : ¬ (l.updateUp.isBatch && (v.X d).length == 1) = true := by
      simp only [SparseTrain.isBatch, Bool.and_eq_true, Bool.or_eq_true] at *
      tauto
    have hb : ¬ (l.updateBoundary.isBatch && (v.X d).length == 1) = true := by
      simp only [SparseTrain.isBatch, Bool.and_eq_true, Bool.or_eq_true] at *
      tauto
    unfold SparseTrain.after
    rw [hp.x, propagate_ok (cfg := l.eval.cfg)
      (hp.up_ok hv (r := l.eval.rule) (msg_row_value (fun _ => rfl))) rfl (hp.bnd_ok hv (r := l.eval.rule)), ok_bind]
    simp only [Option.getD_some]
    rw [addScaled_range, ok_bind, addScaled_range, ok_bind, UpdateNet.train_eq, UpdateNet.train_eq,
      if_neg (by simpa using hu), ok_bind, if_neg (by simpa using hb), ok_bind, List.map_map, List.map_map,
      zipRows_range, ok_bind, UpdateNet.after_eq _ _ _ (by simpa using hu), ok_bind,
      UpdateNet.after_eq _ _ _ (by simpa using hb), ok_bind, NormNet.after_eq, pure_eq_ok, ok_inj]
    simp only [SparseTrain.moved, rowsOf_one]
    rfl
  · intro l v d h
    simp only [SparseTrain.moved, rowsOf_nil h, UpdateNet.moved_nil, NormNet.moved_nil]

theorem moves_pp (mo : Momentum R) : Moves (R := R) (PPTrain.after (𝕜 := 𝕜) mo) PPTrain.isBatch
    (PPTrain.moved mo) := by
  constructor
  · intro l v d p hv hp hno
    have hu : ¬ (l.updateUp.isBatch && (v.X d).length == 1) = true := by
      simp only [PPTrain.isBatch, Bool.and_eq_true, Bool.or_eq_true] at *
      tauto
    have hd : ¬ (l.updateDown.isBatch && (v.X d).length == 1) = true := by
      simp only [PPTrain.isBatch, Bool.and_eq_true, Bool.or_eq_true] at *
      tauto
    have hb : ¬ (l.updateBoundary.isBatch && (v.X d).length == 1) = true := by
      simp only [PPTrain.isBatch, Bool.and_eq_true, Bool.or_eq_true] at *
      tauto
    unfold PPTrain.after
    rw [hp.x, propagate_ok (cfg := l.eval.cfg)
      (hp.up_ok hv (r := l.eval.rule) (msg_row_value (fun _ => rfl))) rfl (hp.bnd_ok hv (r := l.eval.rule)), ok_bind]
    simp only [Option.getD_some]
    rw [zeroRows_range, addScaled_range, ok_bind, addScaled_range, ok_bind, addScaled_range, ok_bind,
      UpdateNet.train_eq, UpdateNet.train_eq, UpdateNet.train_eq,
      if_neg (by simpa using hu), ok_bind, if_neg (by simpa using hd), ok_bind, if_neg (by simpa using hb), ok_bind,
      List.map_map, List.map_map, List.map_map,
      zipRowsWith_range, ok_bind, zipRowsWith_range, ok_bind, UpdateNet.after_eq _ _ _ (by simpa using hu), ok_bind,
      UpdateNet.after_eq _ _ _ (by simpa using hd), ok_bind,
      UpdateNet.after_eq _ _ _ (by simpa using hb), ok_bind, NormNet.after_eq, pure_eq_ok, ok_inj]
    simp only [PPTrain.moved, rowsOf_one, zero_add]
    rfl
  · intro l v d h
    simp only [PPTrain.moved, rowsOf_nil h, UpdateNet.moved_nil, NormNet.moved_nil]

theorem NormNet.moved_perm (mo : Momentum R) (n : NormNet R) {rows rows' : List R} (h : rows.Perm rows') :
    n.moved 𝕜 mo rows = n.moved 𝕜 mo rows' := by
  cases n with
  | rowwise f => cases rows <;> cases rows' <;> rfl
  | batch dev scale a b =>
    cases rows with
    | nil => rw [h.nil_eq]
    | cons x rows =>
      cases rows' with
      | nil => exact absurd h.eq_nil (by simp)
      | cons y rows' =>
        simp only [NormNet.moved]
        rw [meanOf_perm h, meanOf_perm (h.map _), show rows.length = rows'.length by simpa using h.length_eq]

theorem UpdateNet.moved_perm (mo : Momentum R) (u : UpdateNet R) {rows rows' : List R} (h : rows.Perm rows') :
    u.moved 𝕜 mo rows = u.moved 𝕜 mo rows' := by
  simp only [UpdateNet.moved]
  rw [NormNet.moved_perm mo u.norm1 (h.map u.lin1), NormNet.freeze_perm _ (h.map u.lin1),
    NormNet.moved_perm mo u.norm2 (h.map _)]

theorem rowsOnly_moved_sparse (mo : Momentum R) : RowsOnly (R := R) (SparseTrain.moved (𝕜 := 𝕜) mo) := by
  intro l d vs vs' h
  simp only [SparseTrain.moved]
  rw [UpdateNet.moved_perm mo l.updateUp (h _), UpdateNet.moved_perm mo l.updateBoundary (h _),
    UpdateNet.freeze_perm l.updateUp (h _), UpdateNet.freeze_perm l.updateBoundary (h _),
    NormNet.moved_perm mo l.norm (h _)]

theorem rowsOnly_moved_pp (mo : Momentum R) : RowsOnly (R := R) (PPTrain.moved (𝕜 := 𝕜) mo) := by
  intro l d vs vs' h
  simp only [PPTrain.moved]
  rw [UpdateNet.moved_perm mo l.updateUp (h _), UpdateNet.moved_perm mo l.updateBoundary (h _),
    UpdateNet.moved_perm mo l.updateDown (h _), UpdateNet.freeze_perm l.updateDown (h _),
    UpdateNet.freeze_perm l.updateUp (h _), UpdateNet.freeze_perm l.updateBoundary (h _),
    NormNet.moved_perm mo l.norm (h _)]

section
variable {Lt Lv : Type} {forward : Lt → MPParams R → Py (List R)} {isBatch : Lt → Bool}
  {freeze : Lt → List (View R) → Nat → Lv} {rule : Lv → Rule R} {after : Lt → MPParams R → Py Lt}
  {moved : Lt → List (View R) → Nat → Lt}

theorem movedConvs_alike (hf : RowsOnly freeze) (hm : RowsOnly moved) (m : Nat) {vs vs' : List (View R)}
    (h : Alike m vs vs') (convs : List (List Lt)) :
    movedConvs moved freeze rule m vs convs = movedConvs moved freeze rule m vs' convs := by
  induction convs generalizing vs vs' with
  | nil => rfl
  | cons levels rest ih =>
    have hr : ∀ r d, (rowsOf vs r d).Perm (rowsOf vs' r d) := by
      intro r d
      have := h [] r d
      simpa [View.afterAll] using this
    have hl : (levels.mapIdx fun d l => freeze l vs d) = levels.mapIdx fun d l => freeze l vs' d := by
      congr 1
      funext d l
      exact hf l d vs vs' fun r => hr r d
    have hl' : (levels.mapIdx fun d l => moved l vs d) = levels.mapIdx fun d l => moved l vs' d := by
      congr 1
      funext d l
      exact hm l d vs vs' fun r => hr r d
    simp only [movedConvs, hl, hl']
    rw [ih (h.layer _)]

omit [AddCommMonoid R] in
theorem levelsAfter_eq {levels : List Lt} {ps : List (MPParams R)} {f : Nat → Lt → Lt} (hle : ps.length ≤ levels.length)
    (hin : ∀ d l p, levels[d]? = some l → ps[d]? = some p → after l p = .ok (f d l))
    (hout : ∀ d l, levels[d]? = some l → ps.length ≤ d → f d l = l) :
    levelsAfter after levels ps = .ok (levels.mapIdx f) := by
  induction levels generalizing ps f with
  | nil =>
    cases ps with
    | nil => rfl
    | cons p ps => simp at hle
  | cons l levels ih =>
    cases ps with
    | nil =>
      unfold levelsAfter
      rw [ok_inj]
      apply List.ext_getElem?
      intro d
      rw [List.getElem?_mapIdx]
      cases hd : (l :: levels)[d]? with
      | none => rfl
      | some l' => rw [Option.map_some, hout d l' hd (by simp)]
    | cons p ps =>
      unfold levelsAfter
      rw [hin 0 l p rfl rfl, ok_bind, ih (f := fun d => f (d + 1)) (by simpa using hle)
        (fun d l p h1 h2 => hin (d + 1) l p (by simpa using h1) (by simpa using h2))
        (fun d l h1 h2 => hout (d + 1) l (by simpa using h1) (by simpa using h2)), ok_bind, List.mapIdx_cons]
      rfl

theorem Complex.Runs.paramsList {comp : Complex R L} (h : comp.Runs) (m : Nat) :
    ∃ ps, comp.getAllCochainParams m true false = .ok ps ∧ ps.length = min m comp.dimension + 1 ∧
      ∀ d p, ps[d]? = some p → ParamsOf comp.view d true false p := by
  have hp : ∀ d ∈ List.range (min m comp.dimension + 1), ∃ p,
      comp.getCochainParams d m true false = .ok p ∧
      ParamsOf comp.view d true false p := by
    intro d hd
    have := List.mem_range.mp hd
    have := h.params (d := d) (by omega) m true false
    simpa using this
  obtain ⟨ps, hps⟩ : ∃ ps, comp.getAllCochainParams m true false = .ok ps := by
    unfold Complex.getAllCochainParams
    have : Nonempty (MPParams R) := ⟨{ x := none }⟩
    choose! g hg using hp
    exact ⟨_, mapE_ok fun d hd => (hg d hd).1⟩
  obtain ⟨hlen, hget⟩ := C11_all_params comp m true false true ps hps
  refine ⟨ps, hps, hlen, ?_⟩
  intro d p hpd
  have hd : d < min m comp.dimension + 1 := by
    rw [← hlen]; exact (List.getElem?_eq_some_iff.mp hpd).1
  obtain ⟨p', hp1, hp2⟩ := hp d (List.mem_range.mpr hd)
  have := hget d _ hpd
  rw [hp1] at this
  cases this
  exact hp2

/-- The layers after a pass in training mode, on a complex that runs. -/
theorem convsAfter_eq (ht : Trains forward isBatch freeze rule) (hm : Moves after isBatch moved) {m : Nat}
    {convs : List (List Lt)} (hl : ∀ conv ∈ convs, conv.length = m + 1) {comp : Complex R L} (h : comp.Runs)
    (hno : ∀ conv ∈ convs, ¬ OneRow isBatch comp.view conv) :
    convsAfter (fun data => data.getAllCochainParams m true false) forward after comp convs =
      .ok (movedConvs moved freeze rule m [comp.view] convs) := by
  induction convs generalizing comp with
  | nil => rfl
  | cons conv convs ih =>
    have hw := h.withX (rulesOf rule (conv.mapIdx fun d l => freeze l [comp.view] d)) m true
    have hone : ∀ c : List Lt, OneRow isBatch (comp.withX (comp.view.layer (rulesOf rule
        (conv.mapIdx fun d l => freeze l [comp.view] d)) m true).X).view c ↔ OneRow isBatch comp.view c := by
      intro c
      unfold OneRow
      rw [hw.2]
      simp only [layer_X_length]
    have hc := (h.trainConv ht (hl conv (by simp))).2 (hno conv (by simp))
    obtain ⟨ps, hps, hlen, hfor⟩ := h.paramsList m
    rw [hps, ok_bind] at hc
    have hlev := hl conv (by simp)
    have hlv : levelsAfter after conv ps = .ok (conv.mapIdx fun d l => moved l [comp.view] d) := by
      refine levelsAfter_eq (by rw [hlen, hlev]; omega) ?_ ?_
      · intro d l p h1 h2
        refine hm.1 l _ d p h.range (hfor d p h2) ?_
        intro hb
        rw [Bool.and_eq_true, beq_iff_eq] at hb
        exact hno conv (by simp) ⟨d, l, h1, hb.1, hb.2⟩
      · intro d l h1 h2
        have := (List.getElem?_eq_some_iff.mp h1).1
        refine hm.2 l _ d (view_X_none (List.getElem?_eq_none ?_))
        rw [h.len]
        omega
    simp only [movedConvs]
    unfold convsAfter
    rw [hps, ok_bind, hlv, ok_bind, hc, ok_bind, h.write _ m true, ok_bind,
      ih (fun c hc => hl c (by simp [hc])) hw.1 (fun c hc => by rw [hone]; exact hno c (by simp [hc])), ok_bind, hw.2]
    rfl

/-- A network after a pass in training mode on a batch. -/
theorem SparseNet.after_batch (ht : Trains forward isBatch freeze rule) (hf : RowsOnly freeze)
    (hm : Moves after isBatch moved) (hmr : RowsOnly moved) {net : SparseNet R Lt} (hn : net.Fits)
    {cs : List (Complex R L)} (hr : ∀ c ∈ cs, c.Ready) {mB : Nat} {B : Complex R L}
    (hB : fromComplexList cs mB = .ok B) (hno : ¬ LonelyCell isBatch net cs mB) :
    net.after forward after B = .ok (net.moved moved freeze rule (cs.map fun c => c.view.upTo mB)) := by
  unfold SparseNet.after
  rw [convsAfter_eq ht hm hn.levels (batch_runs hB hr), ok_bind,
    movedConvs_alike hf hmr _ (alike_batch hB hr net.maxDim)]
  · rfl
  · intro conv hc ho
    exact hno ⟨conv, hc, (oneRow_batch hr hB conv).mp ho⟩

end

end Verif
