import Verif.Spec.TrainMode
import Verif.Lemmas.Predict
import Verif.Lemmas.EmbedBatch

/-!
# Lemmas for training mode
-/

namespace Verif

variable {𝕜 R L : Type} [Field 𝕜] [AddCommMonoid R] [Module 𝕜 R]

theorem NormNet.train_eq (n : NormNet R) (rows : List R) :
    n.train 𝕜 rows = if (n.isBatch && rows.length == 1) = true then .error .value
      else .ok (rows.map (n.freeze 𝕜 rows)) := by
  cases n with
  | rowwise f => simp [NormNet.train, NormNet.isBatch, NormNet.freeze]
  | batch dev scale _ _ =>
    unfold NormNet.train NormNet.isBatch NormNet.freeze
    by_cases h : rows.length = 1
    · simp [h]
    · simp only [h, if_false, Bool.true_and, beq_iff_eq]
      rfl

theorem UpdateNet.train_eq (u : UpdateNet R) (rows : List R) :
    u.train 𝕜 rows = if (u.isBatch && rows.length == 1) = true then .error .value
      else .ok (rows.map (u.freeze 𝕜 rows)) := by
  unfold UpdateNet.train UpdateNet.isBatch
  rw [NormNet.train_eq]
  by_cases h : rows.length = 1
  · by_cases h1 : u.norm1.isBatch = true
    · simp [h, h1]
    · simp only [Bool.not_eq_true] at h1
      simp only [List.length_map, h1, Bool.false_eq_true, if_false, ok_bind,
        NormNet.train_eq, h, beq_self_eq_true, Bool.and_true, Bool.false_or]
      split
      · rfl
      · simp only [ok_bind, List.map_map]
        rfl
  · have : (rows.length == 1) = false := by simpa using h
    simp only [List.length_map, this, Bool.and_false, Bool.false_eq_true, if_false, ok_bind,
      NormNet.train_eq, List.map_map]
    rfl

/-- A level in training mode fails on one row, or computes what the frozen level computes. -/
def Trains {Lt Lv : Type} (train : Lt → MPParams R → Py (List R)) (isBatch : Lt → Bool)
    (freeze : Lt → List (View R) → Nat → Lv) (rule : Lv → Rule R) : Prop :=
  ∀ (l : Lt) (v : View R) (d : Nat) (p : MPParams R), v.InRange → ParamsOf v d true false p →
    train l p = if (isBatch l && (v.X d).length == 1) = true then .error .value
      else .ok ((List.range (v.X d).length).map (v.newRow (rule (freeze l [v] d)) true d))

theorem rowsOf_one (v : View R) (r : Rule R) (d : Nat) :
    rowsOf [v] r d = (List.range (v.X d).length).map (v.newRow r true d) := by
  simp [rowsOf]

theorem trains_sparse : Trains (R := R) (SparseTrain.forward (𝕜 := 𝕜)) SparseTrain.isBatch
    SparseTrain.freeze SparseLevel.rule := by
  intro l v d p hv hp
  unfold SparseTrain.forward
  rw [hp.x, propagate_ok (cfg := l.eval.cfg)
    (hp.up_ok hv (r := l.eval.rule) (msg_row_value (fun _ => rfl))) rfl (hp.bnd_ok hv (r := l.eval.rule)), ok_bind]
  simp only [Option.getD_some]
  rw [addScaled_range, ok_bind, addScaled_range, ok_bind, UpdateNet.train_eq, UpdateNet.train_eq]
  simp only [List.length_map, List.length_range]
  by_cases h : (l.updateUp.isBatch && (v.X d).length == 1) = true
  · have h' : (l.isBatch && (v.X d).length == 1) = true := by
      simp only [SparseTrain.isBatch, Bool.and_eq_true, Bool.or_eq_true] at *
      exact ⟨by tauto, h.2⟩
    rw [if_pos h, if_pos h']
    rfl
  rw [if_neg h, ok_bind]
  by_cases h2 : (l.updateBoundary.isBatch && (v.X d).length == 1) = true
  · have h' : (l.isBatch && (v.X d).length == 1) = true := by
      simp only [SparseTrain.isBatch, Bool.and_eq_true, Bool.or_eq_true] at *
      exact ⟨by tauto, h2.2⟩
    rw [if_pos h2, if_pos h']
    rfl
  rw [if_neg h2, ok_bind, List.map_map, List.map_map, zipRows_range, ok_bind, NormNet.train_eq]
  simp only [List.length_map, List.length_range]
  by_cases h3 : (l.norm.isBatch && (v.X d).length == 1) = true
  · have h' : (l.isBatch && (v.X d).length == 1) = true := by
      simp only [SparseTrain.isBatch, Bool.and_eq_true, Bool.or_eq_true] at *
      exact ⟨by tauto, h3.2⟩
    rw [if_pos h3, if_pos h']
    rfl
  rw [if_neg h3, ok_bind, if_neg (by
    simp only [SparseTrain.isBatch]
    simp only [Bool.and_eq_true, beq_iff_eq, not_and, Bool.or_eq_true] at *
    rintro ((h4 | h4) | h4) h5
    · exact h h4 h5
    · exact h2 h4 h5
    · exact h3 h4 h5), pure_eq_ok, ok_inj]
  rw [List.map_map, List.map_map]
  simp only [SparseTrain.freeze, rowsOf_one]
  rfl

theorem trains_pp : Trains (R := R) (PPTrain.forward (𝕜 := 𝕜)) PPTrain.isBatch
    PPTrain.freeze PPLevel.rule := by
  intro l v d p hv hp
  unfold PPTrain.forward
  rw [hp.x, propagate_ok (cfg := l.eval.cfg)
    (hp.up_ok hv (r := l.eval.rule) (msg_row_value (fun _ => rfl))) rfl (hp.bnd_ok hv (r := l.eval.rule)), ok_bind]
  simp only [Option.getD_some]
  rw [zeroRows_range, addScaled_range, ok_bind, addScaled_range, ok_bind, addScaled_range, ok_bind,
    UpdateNet.train_eq, UpdateNet.train_eq, UpdateNet.train_eq]
  simp only [List.length_map, List.length_range]
  by_cases h : (l.updateUp.isBatch && (v.X d).length == 1) = true
  · have h' : (l.isBatch && (v.X d).length == 1) = true := by
      simp only [PPTrain.isBatch, Bool.and_eq_true, Bool.or_eq_true] at *
      exact ⟨by tauto, h.2⟩
    rw [if_pos h, if_pos h']
    rfl
  rw [if_neg h, ok_bind]
  by_cases h1 : (l.updateDown.isBatch && (v.X d).length == 1) = true
  · have h' : (l.isBatch && (v.X d).length == 1) = true := by
      simp only [PPTrain.isBatch, Bool.and_eq_true, Bool.or_eq_true] at *
      exact ⟨by tauto, h1.2⟩
    rw [if_pos h1, if_pos h']
    rfl
  rw [if_neg h1, ok_bind]
  by_cases h2 : (l.updateBoundary.isBatch && (v.X d).length == 1) = true
  · have h' : (l.isBatch && (v.X d).length == 1) = true := by
      simp only [PPTrain.isBatch, Bool.and_eq_true, Bool.or_eq_true] at *
      exact ⟨by tauto, h2.2⟩
    rw [if_pos h2, if_pos h']
    rfl
  rw [if_neg h2, ok_bind, List.map_map, List.map_map, List.map_map, zipRowsWith_range, ok_bind,
    zipRowsWith_range, ok_bind, NormNet.train_eq]
  simp only [List.length_map, List.length_range]
  by_cases h3 : (l.norm.isBatch && (v.X d).length == 1) = true
  · have h' : (l.isBatch && (v.X d).length == 1) = true := by
      simp only [PPTrain.isBatch, Bool.and_eq_true, Bool.or_eq_true] at *
      exact ⟨by tauto, h3.2⟩
    rw [if_pos h3, if_pos h']
    rfl
  rw [if_neg h3, ok_bind, if_neg (by
    simp only [PPTrain.isBatch]
    simp only [Bool.and_eq_true, beq_iff_eq, not_and, Bool.or_eq_true] at *
    rintro (((h4 | h4) | h4) | h4) h5
    · exact h h4 h5
    · exact h1 h4 h5
    · exact h2 h4 h5
    · exact h3 h4 h5), pure_eq_ok, ok_inj]
  rw [List.map_map, List.map_map]
  simp only [PPTrain.freeze, rowsOf_one]
  apply List.map_congr_left
  intro c _
  simp only [View.newRow, PPLevel.rule, Function.comp, zero_add]
  rfl


/-- Some level that uses batch statistics gets exactly one row. -/
def OneRow {Lt : Type} (isBatch : Lt → Bool) (v : View R) (levels : List Lt) : Prop :=
  ∃ d l, levels[d]? = some l ∧ isBatch l = true ∧ (v.X d).length = 1

section
variable {Lt Lv : Type} {train : Lt → MPParams R → Py (List R)} {isBatch : Lt → Bool}
  {freeze : Lt → List (View R) → Nat → Lv} {rule : Lv → Rule R}

/-- A convolution in training mode. -/
theorem Complex.Runs.trainConv {comp : Complex R L} (h : comp.Runs)
    (ht : Trains train isBatch freeze rule) {m : Nat} {levels : List Lt} (hl : levels.length = m + 1) :
    (OneRow isBatch comp.view levels →
      (comp.getAllCochainParams m true false >>= convForward train levels) = .error .value) ∧
    (¬ OneRow isBatch comp.view levels →
      (comp.getAllCochainParams m true false >>= convForward train levels) =
        .ok ((List.range (min m comp.dimension + 1)).map
          (comp.view.layer (rulesOf rule (levels.mapIdx fun d l => freeze l [comp.view] d)) m true).X)) := by
  have hp : ∀ d ∈ List.range (min m comp.dimension + 1), ∃ p,
      comp.getCochainParams d m true false = .ok p ∧
      ParamsOf comp.view d true false p := by
    intro d hd
    have := List.mem_range.mp hd
    have := h.params (d := d) (by omega) m true false
    simpa using this
  obtain ⟨ps, hps⟩ : ∃ ps, comp.getAllCochainParams m true false = .ok ps := by
    unfold Complex.getAllCochainParams
    have : Nonempty (MPParams R) := ⟨{ x := none }⟩
    choose! g hg using hp
    exact ⟨_, mapE_ok fun d hd => (hg d hd).1⟩
  obtain ⟨hlen, hget⟩ := C11_all_params comp m true false true ps hps
  have hle : ps.length ≤ levels.length := by rw [hlen, hl]; omega
  have hfor : ∀ d p, ps[d]? = some p → ParamsOf comp.view d true false p := by
    intro d p hpd
    have hd : d < min m comp.dimension + 1 := by
      rw [← hlen]; exact (List.getElem?_eq_some_iff.mp hpd).1
    obtain ⟨p', hp1, hp2⟩ := hp d (List.mem_range.mpr hd)
    have := hget d _ hpd
    rw [hp1] at this
    cases this
    exact hp2
  have hconv : (comp.getAllCochainParams m true false >>= convForward train levels) =
      mapE (fun lp => train lp.1 lp.2) (levels.zip ps) := by
    rw [hps, ok_bind]
    unfold convForward
    rw [show decide (ps.length ≤ levels.length) = true by simpa using hle, pyAssert_true, ok_bind,
      convLoop_eq_mapE _ _ _ hle]
  rw [hconv]
  constructor
  · rintro ⟨d, l, hd, hb, h1⟩
    have hdlt : d < ps.length := by
      rw [hlen]
      have := (List.getElem?_eq_some_iff.mp hd).1
      rw [hl] at this
      have hdd : ¬ comp.dimension < d := by
        intro hgt
        rw [view_X_none (List.getElem?_eq_none (by rw [h.len]; omega))] at h1
        simp at h1
      omega
    obtain ⟨p, hpd⟩ : ∃ p, ps[d]? = some p := ⟨_, List.getElem?_eq_getElem hdlt⟩
    have hz : ∀ lp ∈ levels.zip ps, ∃ d, ParamsOf comp.view d true false lp.2 ∧ levels[d]? = some lp.1 := by
      intro lp hlp
      obtain ⟨i, hi⟩ := List.getElem?_of_mem hlp
      rw [List.getElem?_zip_eq_some] at hi
      exact ⟨i, hfor i _ hi.2, hi.1⟩
    have hsplit : ∀ lp ∈ levels.zip ps, train lp.1 lp.2 = .error .value ∨ ∃ b, train lp.1 lp.2 = .ok b := by
      intro lp hlp
      obtain ⟨i, hi, -⟩ := hz lp hlp
      rw [ht _ _ _ _ h.range hi]
      split
      · exact .inl rfl
      · exact .inr ⟨_, rfl⟩
    have hone : (l, p) ∈ levels.zip ps :=
      List.mem_of_getElem? (i := d) (by rw [List.getElem?_zip_eq_some]; exact ⟨hd, hpd⟩)
    have hval : train l p = .error .value := by
      rw [ht _ _ _ _ h.range (hfor d p hpd), if_pos (by simp [hb, h1])]
    generalize levels.zip ps = zs at hsplit hone
    clear hz hconv
    induction zs with
    | nil => simp at hone
    | cons z zs ih =>
      rw [mapE_cons]
      rcases hsplit z (by simp) with hz | ⟨b, hz⟩
      · rw [hz]; rfl
      · rcases List.mem_cons.mp hone with rfl | hone
        · rw [hval] at hz; cases hz
        · rw [hz, ok_bind, ih (fun lp h => hsplit lp (by simp [h])) hone]; rfl
  · intro hno
    rw [mapE_eq_ok_iff]
    apply forall₂_of_get
    · simp [hlen, hl]
    · intro d lp out hlp hout
      rw [List.getElem?_zip_eq_some] at hlp
      obtain ⟨hlv, hpd⟩ := hlp
      have hd : d < min m comp.dimension + 1 := by
        rw [← hlen]; exact (List.getElem?_eq_some_iff.mp hpd).1
      rw [ht _ _ _ _ h.range (hfor d _ hpd), if_neg (by
        intro hb
        rw [Bool.and_eq_true, beq_iff_eq] at hb
        exact hno ⟨d, lp.1, hlv, hb.1, hb.2⟩)]
      rw [List.getElem?_map, List.getElem?_range hd] at hout
      cases hout
      rw [ok_inj]
      simp only [View.layer, rulesOf, List.getElem?_mapIdx, hlv, Option.map_some]
      rw [if_pos (by omega)]
      simp

/-- Statistics only depend on the rows. -/
def RowsOnly (freeze : Lt → List (View R) → Nat → Lv) : Prop :=
  ∀ l d vs vs', (∀ r, (rowsOf vs r d).Perm (rowsOf vs' r d)) → freeze l vs d = freeze l vs' d

theorem meanOf_perm {rows rows' : List R} (h : rows.Perm rows') : meanOf 𝕜 rows = meanOf 𝕜 rows' := by
  unfold meanOf
  rw [h.length_eq, h.sum_eq]

theorem NormNet.freeze_perm (n : NormNet R) {rows rows' : List R} (h : rows.Perm rows') :
    n.freeze 𝕜 rows = n.freeze 𝕜 rows' := by
  cases n with
  | rowwise f => rfl
  | batch dev scale a b =>
    simp only [NormNet.freeze]
    rw [meanOf_perm h, meanOf_perm (h.map _)]

theorem UpdateNet.freeze_perm (u : UpdateNet R) {rows rows' : List R} (h : rows.Perm rows') :
    u.freeze 𝕜 rows = u.freeze 𝕜 rows' := by
  simp only [UpdateNet.freeze]
  rw [NormNet.freeze_perm _ (h.map u.lin1), NormNet.freeze_perm u.norm2 (h.map _)]

theorem rowsOnly_sparse : RowsOnly (R := R) (SparseTrain.freeze (𝕜 := 𝕜)) := by
  intro l d vs vs' h
  simp only [SparseTrain.freeze]
  rw [UpdateNet.freeze_perm l.updateUp (h _), UpdateNet.freeze_perm l.updateBoundary (h _),
    NormNet.freeze_perm l.norm (h _)]

theorem rowsOnly_pp : RowsOnly (R := R) (PPTrain.freeze (𝕜 := 𝕜)) := by
  intro l d vs vs' h
  simp only [PPTrain.freeze]
  rw [UpdateNet.freeze_perm l.updateUp (h _), UpdateNet.freeze_perm l.updateBoundary (h _),
    UpdateNet.freeze_perm l.updateDown (h _), NormNet.freeze_perm l.norm (h _)]

/-- The view after some layers. -/
def View.afterAll (v : View R) (m : Nat) (layers : List (Nat → Rule R)) : View R :=
  layers.foldl (fun v rules => v.layer rules m true) v

/-- After any layers the complexes have the same rows, in some order. -/
def Alike (m : Nat) (vs vs' : List (View R)) : Prop :=
  ∀ layers r d, (rowsOf (vs.map fun v => v.afterAll m layers) r d).Perm
    (rowsOf (vs'.map fun v => v.afterAll m layers) r d)

theorem Alike.layer {m : Nat} {vs vs' : List (View R)} (h : Alike m vs vs') (rules : Nat → Rule R) :
    Alike m (vs.map fun v => v.layer rules m true) (vs'.map fun v => v.layer rules m true) := by
  intro layers r d
  rw [List.map_map, List.map_map]
  exact h (rules :: layers) r d

theorem freezeConvs_alike (hf : RowsOnly freeze) (m : Nat) {vs vs' : List (View R)} (h : Alike m vs vs')
    (convs : List (List Lt)) : freezeConvs freeze rule m vs convs = freezeConvs freeze rule m vs' convs := by
  induction convs generalizing vs vs' with
  | nil => rfl
  | cons levels rest ih =>
    have hr : ∀ r d, (rowsOf vs r d).Perm (rowsOf vs' r d) := by
      intro r d
      have := h [] r d
      simpa [View.afterAll] using this
    have hl : (levels.mapIdx fun d l => freeze l vs d) = levels.mapIdx fun d l => freeze l vs' d := by
      congr 1
      funext d l
      exact hf l d vs vs' fun r => hr r d
    simp only [freezeConvs, hl]
    rw [ih (h.layer _)]

theorem afterAll_inRange {v : View R} (h : v.InRange) (m : Nat) (layers : List (Nat → Rule R)) :
    (v.afterAll m layers).InRange := by
  induction layers generalizing v with
  | nil => exact h
  | cons rules rest ih => exact ih (layer_inRange h rules m true)

theorem afterAll_X_length (v : View R) (m : Nat) (layers : List (Nat → Rule R)) (d : Nat) :
    ((v.afterAll m layers).X d).length = (v.X d).length := by
  induction layers generalizing v with
  | nil => rfl
  | cons rules rest ih => exact (ih _).trans (layer_X_length v rules m true d)

theorem LocalIso.afterAll {v w : View R} {φ : Nat → Nat → Nat} (h : LocalIso v w φ) (hv : v.InRange) (m : Nat)
    (layers : List (Nat → Rule R)) : LocalIso (v.afterAll m layers) (w.afterAll m layers) φ := by
  induction layers generalizing v w with
  | nil => exact h
  | cons rules rest ih => exact ih (h.layer hv rules m true) (layer_inRange hv rules m true)

/-- The batch and its complexes. -/
theorem alike_batch {cs : List (Complex R L)} {mB : Nat} {B : Complex R L}
    (h : fromComplexList cs mB = .ok B) (hr : ∀ comp ∈ cs, comp.Ready) (m : Nat) :
    Alike m [B.view] (cs.map fun c => c.view.upTo mB) := by
  intro layers r d
  have hrow : ∀ v : View R, ((List.range ((v.afterAll m layers).X d).length).map
      ((v.afterAll m layers).newRow r true d)).length = (v.X d).length := by
    intro v
    rw [List.length_map, List.length_range, afterAll_X_length]
  have e : rowsOf (([B.view]).map fun v => v.afterAll m layers) r d =
      rowsOf ((cs.map fun c => c.view.upTo mB).map fun v => v.afterAll m layers) r d := by
    rw [List.map_singleton, rowsOf_one]
    unfold rowsOf
    rw [List.map_map, List.flatMap_map]
    by_cases hd : d ≤ mB
    · refine eq_flatMap_of_blocks (n := Complex.cellsIn d) ?_ ?_ ?_
      · intro c hc
        exact (hrow _).trans (upTo_X_length (hr c hc) hd)
      · rw [hrow, batch_X_length h hr hd]
      · intro i c hi k hk
        have hc := List.mem_of_getElem? hi
        have hv := upTo_inRange (ready_inRange (hr c hc)) mB
        have hl := (batch_localIso h hr hi).afterAll hv m layers
        have hk2 : k < (((c.view.upTo mB).afterAll m layers).X d).length := by
          rw [afterAll_X_length, upTo_X_length (hr c hc) hd]; exact hk
        have hlt := hl.lt hk2
        have hn := hl.newRow (afterAll_inRange hv m layers) r true hk2
        simp only [inBatch] at hlt hn
        rw [List.getElem?_map, List.getElem?_range hlt]
        simp only [Function.comp]
        rw [List.getElem?_map, List.getElem?_range hk2, Option.map_some, Option.map_some, hn]
    · have e1 : (B.view.X d) = [] := by
        refine view_X_none (List.getElem?_eq_none ?_)
        have := (batch_runs h hr).len
        have := (batch_dim_le h).1
        omega
      have e2 : (List.range ((B.view.afterAll m layers).X d).length).map ((B.view.afterAll m layers).newRow r true d) = [] := by
        rw [← List.length_eq_zero_iff, hrow, e1]; rfl
      rw [e2, eq_comm, List.flatMap_eq_nil_iff]
      intro c hc
      rw [← List.length_eq_zero_iff]
      refine (hrow _).trans ?_
      simp only [View.upTo, if_neg hd]
      rfl
  rw [e]

/-- The layers in training mode, on a complex that runs. -/
theorem runConvs_train (ht : Trains train isBatch freeze rule) {level : Lv → MPParams R → Py (List R)}
    {needs : Lv → Prop} (hreal : Realises level rule needs false) {m : Nat} {convs : List (List Lt)}
    (hl : ∀ conv ∈ convs, conv.length = m + 1) {comp : Complex R L} (h : comp.Runs) :
    ((∃ conv ∈ convs, OneRow isBatch comp.view conv) →
      runConvs (fun data => data.getAllCochainParams m true false) (convForward train) comp convs =
        .error .value) ∧
    ((∀ conv ∈ convs, ¬ OneRow isBatch comp.view conv) →
      runConvs (fun data => data.getAllCochainParams m true false) (convForward train) comp convs =
        runConvs (fun data => data.getAllCochainParams m true false) (convForward level) comp
          (freezeConvs freeze rule m [comp.view] convs)) := by
  induction convs generalizing comp with
  | nil => exact ⟨by simp, fun _ => rfl⟩
  | cons conv convs ih =>
    obtain ⟨hbad, hgood⟩ := h.trainConv ht (hl conv (by simp))
    have hw := h.withX (rulesOf rule (conv.mapIdx fun d l => freeze l [comp.view] d)) m true
    have ih := ih (fun c hc => hl c (by simp [hc])) hw.1
    have hone : ∀ c : List Lt, OneRow isBatch (comp.withX (comp.view.layer (rulesOf rule
        (conv.mapIdx fun d l => freeze l [comp.view] d)) m true).X).view c ↔ OneRow isBatch comp.view c := by
      intro c
      unfold OneRow
      rw [hw.2]
      simp only [layer_X_length]
    simp only [hone] at ih
    by_cases h1 : OneRow isBatch comp.view conv
    · refine ⟨fun _ => ?_, fun hno => absurd h1 (hno conv (by simp))⟩
      unfold runConvs
      have := hbad h1
      cases hps : comp.getAllCochainParams m true false with
      | error e =>
        rw [hps] at this
        cases this
        rfl
      | ok ps =>
        rw [hps, ok_bind] at this
        rw [ok_bind, this]
        rfl
    · have hc := hgood h1
      have hc' := h.conv hreal (m := m) (top := true) (levels := conv.mapIdx fun d l => freeze l [comp.view] d)
        ⟨by rw [List.length_mapIdx]; exact hl conv (by simp), fun _ _ _ _ => by simp⟩
      obtain ⟨ps, hps, hc⟩ := bind_eq_ok.mp hc
      rw [hps, ok_bind] at hc'
      simp only [freezeConvs]
      unfold runConvs
      rw [hps, ok_bind, hc, ok_bind, h.write _ m true, ok_bind]
      constructor
      · rintro ⟨c, hmem, hrow⟩
        rcases List.mem_cons.mp hmem with rfl | hmem
        · exact absurd hrow h1
        · rw [ih.1 ⟨c, hmem, hrow⟩]; rfl
      · intro hno
        rw [ok_bind, hc', ok_bind, h.write _ m true, ok_bind, ih.2 fun c hc => hno c (by simp [hc]), hw.2]
        rfl

theorem freezeConvs_length (m : Nat) (vs : List (View R)) (convs : List (List Lt)) (k : Nat)
    (h : ∀ conv ∈ convs, conv.length = k) :
    (freezeConvs freeze rule m vs convs).length = convs.length ∧
      ∀ conv ∈ freezeConvs freeze rule m vs convs, conv.length = k := by
  induction convs generalizing vs with
  | nil => simp [freezeConvs]
  | cons conv convs ih =>
    have := ih (vs.map fun v => v.layer (rulesOf rule (conv.mapIdx fun d l => freeze l vs d)) m true)
      fun c hc => h c (by simp [hc])
    simp only [freezeConvs, List.length_cons, List.mem_cons]
    refine ⟨by rw [this.1], ?_⟩
    rintro c (rfl | hc)
    · rw [List.length_mapIdx]; exact h conv (by simp)
    · exact this.2 c hc

theorem SparseNet.Fits.frozen {net : SparseNet R Lt} (h : net.Fits) (vs : List (View R)) :
    (net.frozen freeze rule vs).Fits := by
  have := freezeConvs_length (freeze := freeze) (rule := rule) net.maxDim vs net.convs _ h.levels
  refine ⟨?_, this.2, h.lin1s, h.readout, h.final, h.dims⟩
  intro he
  have h2 : (freezeConvs freeze rule net.maxDim vs net.convs).length = 0 := by
    rw [List.length_eq_zero_iff]; exact he
  rw [this.1, List.length_eq_zero_iff] at h2
  exact h.layers h2

/-- A network in training mode on a batch. -/
theorem SparseNet.forward_train (ht : Trains train isBatch freeze rule) (hf : RowsOnly freeze)
    {level : Lv → MPParams R → Py (List R)} {needs : Lv → Prop} (hreal : Realises level rule needs false)
    {net : SparseNet R Lt} (hn : net.Fits) {cs : List (Complex R L)} (hr : ∀ c ∈ cs, c.Ready) {mB : Nat}
    {B : Complex R L} (hB : fromComplexList cs mB = .ok B) :
    ((∃ conv ∈ net.convs, OneRow isBatch B.view conv) → net.forward 𝕜 train B = .error .value) ∧
    ((∀ conv ∈ net.convs, ¬ OneRow isBatch B.view conv) → net.forward 𝕜 train B =
      (net.frozen freeze rule (cs.map fun c => c.view.upTo mB)).forward 𝕜 level B) := by
  obtain ⟨h1, h2⟩ := runConvs_train ht hreal hn.levels (batch_runs hB hr)
  constructor
  · intro h
    unfold SparseNet.forward
    rw [h1 h]
    rfl
  · intro h
    unfold SparseNet.forward
    rw [h2 h, freezeConvs_alike hf _ (alike_batch hB hr net.maxDim)]
    rfl

omit [AddCommMonoid R] in
/-- One row, in terms of the cells. -/
theorem oneRow_batch {cs : List (Complex R L)} (hr : ∀ c ∈ cs, c.Ready) {mB : Nat}
    {B : Complex R L} (hB : fromComplexList cs mB = .ok B) (conv : List Lt) :
    OneRow isBatch B.view conv ↔ ∃ d l, conv[d]? = some l ∧ isBatch l = true ∧ d ≤ mB ∧
      (cs.map (Complex.cellsIn d)).sum = 1 := by
  unfold OneRow
  constructor
  · rintro ⟨d, l, h1, h2, h3⟩
    have hd : d ≤ mB := by
      by_contra hd
      rw [view_X_none (List.getElem?_eq_none (by
        have := (batch_runs hB hr).len
        have := (batch_dim_le hB).1
        omega))] at h3
      simp at h3
    exact ⟨d, l, h1, h2, hd, by rw [← batch_X_length hB hr hd]; exact h3⟩
  · rintro ⟨d, l, h1, h2, hd, h3⟩
    exact ⟨d, l, h1, h2, by rw [batch_X_length hB hr hd]; exact h3⟩

/-- A renumbered complex. -/
theorem Relabels.rows {v w : View R} {φ : Nat → Nat → Nat} (h : Relabels v w φ) (hv : v.InRange) (m : Nat)
    (layers : List (Nat → Rule R)) (r : Rule R) (d : Nat) :
    ((List.range ((w.afterAll m layers).X d).length).map ((w.afterAll m layers).newRow r true d)).Perm
      ((List.range ((v.afterAll m layers).X d).length).map ((v.afterAll m layers).newRow r true d)) := by
  have hl := (h.localIso hv).afterAll hv m layers
  refine perm_of_rename (φ := φ d) ?_ ?_ ?_
  · simp only [List.length_map, List.length_range, afterAll_X_length, h.size]
  · simp only [List.length_map, List.length_range, afterAll_X_length]
    exact h.inj d
  · intro c hc
    simp only [List.length_map, List.length_range] at hc
    rw [List.getElem?_map, List.getElem?_range (hl.lt hc), List.getElem?_map, List.getElem?_range hc,
      Option.map_some, Option.map_some, hl.newRow (afterAll_inRange hv m layers) r true hc]

theorem alike_relabels {m : Nat} {vs vs' : List (View R)}
    (h : List.Forall₂ (fun v w => ∃ φ, Relabels v w φ) vs vs') (hv : ∀ v ∈ vs, v.InRange) :
    Alike m vs' vs := by
  intro layers r d
  induction h with
  | nil => exact .refl _
  | @cons v w vs vs' hc _ ih =>
    obtain ⟨φ, hφ⟩ := hc
    simp only [rowsOf, List.map_cons, List.flatMap_cons]
    exact (hφ.rows (hv v (by simp)) m layers r d).append (ih fun v h => hv v (by simp [h]))

theorem alike_perm {m : Nat} {vs vs' : List (View R)} (h : vs'.Perm vs) : Alike m vs' vs := by
  intro layers r d
  exact (h.map _).flatMap_right _

theorem Alike.trans {m : Nat} {vs vs' vs'' : List (View R)} (h : Alike m vs vs') (h' : Alike m vs' vs'') :
    Alike m vs vs'' := fun layers r d => (h layers r d).trans (h' layers r d)

end

/-- An embedding network computes what its inner network computes on the embedded complexes. -/
theorem EmbedNet.forward_embed {R : Type} [AddCommGroup R] [Module 𝕜 R] {Lv : Type}
    (level : Lv → MPParams R → Py (List R)) {net : EmbedNet R Lv}
    (hred : ∀ a b : List R, a.Perm b → net.init.reduce a = net.init.reduce b)
    {cs : List (Complex R L)} (hne : cs ≠ []) (h : ∀ c ∈ cs, net.init.Takes c) (hu : UniformFeatures cs)
    {mB : Nat} (hm : ∀ c ∈ cs, min c.dimension mB ≤ net.net.maxDim) :
    (fromComplexList cs mB >>= net.forward 𝕜 level) =
      (fromComplexList (cs.map net.init.embed) mB >>= net.net.forward 𝕜 level) := by
  obtain ⟨B, B', hB, hB', hRef, hreads, hrows⟩ := embed_batch hred hne (fun c hc => (h c hc).embeds) hu mB
    (fun c hc => (Nat.min_le_left _ _).trans (h c hc).small)
  have hrd : ∀ c ∈ cs.map net.init.embed, c.Ready := by
    intro c hc
    obtain ⟨e, he, rfl⟩ := List.mem_map.mp hc
    exact EmbedInit.embed_ready (h e he).embeds
  have runs := batch_runs hB' hrd
  have hdim : B.dimension ≤ net.net.maxDim := by
    obtain ⟨h1, c, hc, h2⟩ := batch_dim_le hB
    have := hm c hc
    omega
  obtain ⟨ps, hps, hfw⟩ := hreads.forward hdim
  have hnodes : checkNodes B = .ok () := by
    unfold checkNodes
    obtain ⟨c, hc⟩ := hreads.get (Nat.zero_le _)
    have := hreads.nodes
    rw [attr_of hc] at this
    obtain ⟨x, hx⟩ := Option.isSome_iff_exists.mp this
    rw [hc]
    simp only [hx]
  have hset : B.setXs (((List.range (B.dimension + 1)).map (net.init.rows B)).map some) = .ok B' := by
    rw [List.map_map]
    have := hRef.setXs runs.len (by
      intro a ha
      obtain ⟨d, hd⟩ := List.mem_iff_getElem?.mp ha
      exact runs.feat d a hd)
    rw [hrows] at this
    exact this
  rw [hB, ok_bind]
  unfold EmbedNet.forward
  rw [hnodes, ok_bind, hps, ok_bind, hfw, ok_bind, hset, ok_bind, hB', ok_bind]

end Verif
