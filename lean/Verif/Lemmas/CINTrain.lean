import Verif.Spec.CINTrain
import Verif.Lemmas.TrainMode
import Verif.Spec.Lower

/-!
# Lemmas for CIN0 in training mode
-/

namespace Verif

variable {𝕜 R L : Type} [Field 𝕜] [AddCommMonoid R] [Module 𝕜 R]

theorem scatter_cols {cols : List ((Nat × Nat) × Nat)} {n : Nat} (hin : ∀ p ∈ cols, p.1.2 < n)
    (g : (Nat × Nat) × Nat → R) :
    scatter aggAdd n ((cols.map Prod.fst).map Prod.snd) (cols.map g) =
      .ok ((List.range n).map fun c => ((cols.filter (fun p => p.1.2 == c)).map g).sum) := by
  rw [scatter_ok (by simp) (by
    intro i hi
    rw [List.map_map, List.mem_map] at hi
    obtain ⟨p, hp, rfl⟩ := hi
    exact hin p hp), ok_inj]
  apply List.map_congr_left
  intro c _
  rw [List.map_map, List.zip_map', aggAdd, List.filter_map, List.map_map]
  rfl

/-- The messages of one adjacency, in training mode. -/
theorem aggregateTrain_cols {msg : Msg R R R} {f : R → R → R}
    (hmsg : ∀ xs as, msg.apply xs (some as) = Msg.zipAttr f xs as) (norm : NormNet R)
    {cols : List ((Nat × Nat) × Nat)} {x att : List R}
    (hin : ∀ p ∈ cols, p.1.1 < x.length ∧ p.1.2 < x.length) :
    aggregateTrain 𝕜 msg norm x (some (cols.map Prod.fst)) (some (cols.map fun q => rowOf att q.2)) =
      if (norm.isBatch && cols.length == 1) = true then .error .value
      else .ok ((List.range x.length).map fun c => ((cols.filter (fun p => p.1.2 == c)).map fun p =>
        norm.freeze 𝕜 (cols.map fun p => f (rowOf x p.1.1) (rowOf att p.2))
          (f (rowOf x p.1.1) (rowOf att p.2))).sum) := by
  unfold aggregateTrain
  dsimp only
  rw [indexSelect_rowOf (by
    intro i hi
    rw [List.map_map, List.mem_map] at hi
    obtain ⟨p, hp, rfl⟩ := hi
    exact (hin p hp).1), ok_bind, hmsg]
  unfold Msg.zipAttr
  rw [if_pos (by simp), ok_bind, List.map_map, List.map_map, List.zipWith_map, List.zipWith_self, NormNet.train_eq,
    List.length_map]
  split
  · rfl
  · rw [ok_bind]
    exact (congrArg _ List.map_map).trans (scatter_cols (fun p hp => (hin p hp).2) _)

theorem ParamsOf.up_train {v : View R} {d : Nat} {down : Bool} {p : MPParams R}
    (hp : ParamsOf v d true down p) (hv : v.InRange) (f : R → R) (g : R → R → R) (norm : NormNet R) (r : Rule R)
    (hr : ∀ x a, r.up x (some a) = norm.freeze 𝕜 (upRows [v] g d) (g x a)) :
    aggregateTrain 𝕜 (.optAttr f g) norm (v.X d) p.upIndex p.upAttr =
      if (norm.isBatch && upCount [v] d == 1) = true then .error .value
      else .ok ((List.range (v.X d).length).map (v.upSum r true d)) := by
  cases hu : p.upIndex with
  | none =>
    have h0 := hp.upNone hu
    rw [if_neg (by simp [upCount, h0]), aggregateTrain, ok_inj, eq_comm]
    apply range_map_zero
    apply List.map_congr_left
    intro c _
    simp [View.upSum, h0]
  | some cols =>
    obtain ⟨rfl, ha⟩ := hp.up cols hu
    rw [ha, if_pos rfl, aggregateTrain_cols (f := g) (fun _ _ => rfl) norm
      fun q hq => ⟨(hv.up d q hq).1, (hv.up d q hq).2.1⟩]
    have e : upCount [v] d = (v.up d).length := by simp [upCount]
    rw [e]
    split
    · rfl
    rw [ok_inj]
    apply List.map_congr_left
    intro c _
    simp only [View.upSum, if_true, hr, upRows, List.flatMap_cons, List.flatMap_nil, List.append_nil]

theorem ParamsOf.down_train {v : View R} {d : Nat} {shared : Bool} {p : MPParams R}
    (hp : ParamsOf v d shared true p) (hv : v.InRange) (g : R → R → R) (norm : NormNet R) (r : Rule R)
    (hr : ∀ x a, r.down x a = norm.freeze 𝕜 (downRows [v] g d) (g x a)) :
    aggregateTrain 𝕜 (.withAttr g) norm (v.X d) p.downIndex p.downAttr =
      if (norm.isBatch && downCount [v] d == 1) = true then .error .value
      else .ok ((List.range (v.X d).length).map (v.downSum r d)) := by
  cases hu : p.downIndex with
  | none =>
    have h0 := hp.downNone rfl hu
    rw [if_neg (by simp [downCount, h0]), aggregateTrain, ok_inj, eq_comm]
    apply range_map_zero
    apply List.map_congr_left
    intro c _
    simp [View.downSum, h0]
  | some cols =>
    obtain ⟨rfl, ha⟩ := hp.down rfl cols hu
    rw [ha, aggregateTrain_cols (f := g) (fun _ _ => rfl) norm
      fun q hq => ⟨(hv.down d q hq).1, (hv.down d q hq).2.1⟩]
    have e : downCount [v] d = (v.down d).length := by simp [downCount]
    rw [e]
    split
    · rfl
    rw [ok_inj]
    apply List.map_congr_left
    intro c _
    simp only [View.downSum, hr, downRows, List.flatMap_cons, List.flatMap_nil, List.append_nil]

open Classical in
/-- One level in training mode. -/
theorem trains_cin (l : CINTrain 𝕜 R) (v : View R) (d : Nat) (p : MPParams R) (hv : v.InRange)
    (hp : ParamsOf v d true true p) :
    l.forward p = if l.OneRow [v] d then .error .value
      else .ok ((List.range (v.X d).length).map (v.newRow (l.freeze [v] d).rule true d)) := by
  have hc : cellCount [v] d = (v.X d).length := by simp [cellCount]
  unfold CINTrain.forward
  rw [hp.x]
  dsimp only
  rw [hp.up_train (𝕜 := 𝕜) hv l.upAlone l.up l.upNorm (l.freeze [v] d).rule fun _ _ => rfl]
  by_cases h1 : (l.upNorm.isBatch && upCount [v] d == 1) = true
  · rw [if_pos h1, if_pos (.inl (by simpa using h1))]
    rfl
  rw [if_neg h1, ok_bind, hp.down_train (𝕜 := 𝕜) hv l.down l.downNorm (l.freeze [v] d).rule fun _ _ => rfl]
  by_cases h2 : (l.downNorm.isBatch && downCount [v] d == 1) = true
  · rw [if_pos h2, if_pos (.inr (.inl (by simpa using h2)))]
    rfl
  rw [if_neg h2, ok_bind, addScaled_range, ok_bind, addScaled_range, ok_bind, zipRows_range, ok_bind,
    NormNet.train_eq]
  simp only [List.length_map, List.length_range]
  by_cases h3 : (l.norm.isBatch && (v.X d).length == 1) = true
  · rw [if_pos h3, if_pos (.inr (.inr (by rw [hc]; simpa using h3)))]
  rw [if_neg h3, if_neg (by
    rintro (h | h | h)
    · exact h1 (by simpa using h)
    · exact h2 (by simpa using h)
    · rw [hc] at h; exact h3 (by simpa using h)), ok_inj, List.map_map, List.map_map]
  apply List.map_congr_left
  intro c _
  simp only [Function.comp, View.newRow, CINTrain.freeze, CINLevel.rule, rowsOf_one, View.upSum, View.downSum,
    List.map_map]
  rfl

/-! ### Rows of a batch -/

/-- What `val` gives for all cells of dimension `d` of some complexes. -/
def allOf {α : Type} (vs : List (View R)) (val : View R → Nat → Nat → α) (d : Nat) : List α :=
  vs.flatMap fun v => (List.range (v.X d).length).map (val v d)

/-- `val` only depends on what is around the cell. -/
def IsLocal {α : Type} (val : View R → Nat → Nat → α) : Prop :=
  ∀ (v w : View R) (φ : Nat → Nat → Nat), LocalIso v w φ → v.InRange → ∀ d c, c < (v.X d).length →
    val w d (φ d c) = val v d c

/-- The messages to a cell from above. -/
def upMsgs (f : R → R → R) (v : View R) (d c : Nat) : Multiset R :=
  (((v.up d).filter (fun p => p.1.2 == c)).map fun p => f (rowOf (v.X d) p.1.1) (rowOf (v.X (d + 1)) p.2) : List R)

/-- The messages to a cell from below. -/
def downMsgs (f : R → R → R) (v : View R) (d c : Nat) : Multiset R :=
  (((v.down d).filter (fun p => p.1.2 == c)).map fun p => f (rowOf (v.X d) p.1.1) (rowOf (v.below d) p.2) : List R)

theorem isLocal_newRow (r : Rule R) : IsLocal fun v => v.newRow r true :=
  fun _ _ _ h hv _ _ hc => h.newRow hv r true hc

theorem isLocal_up (f : R → R → R) : IsLocal (upMsgs f) := by
  intro v w φ h hv d c hc
  unfold upMsgs
  rw [Multiset.coe_eq_coe]
  refine ((h.up d c hc).map _).trans ?_
  rw [List.map_map]
  refine List.Perm.of_eq (List.map_congr_left ?_)
  intro p hp
  obtain ⟨h1, _, h3⟩ := hv.up d p (List.mem_filter.mp hp).1
  simp only [Function.comp]
  rw [h.row h1, h.row h3]

theorem isLocal_down (f : R → R → R) : IsLocal (downMsgs f) := by
  intro v w φ h hv d c hc
  unfold downMsgs
  rw [Multiset.coe_eq_coe]
  refine ((h.down d c hc).map _).trans ?_
  rw [List.map_map]
  refine List.Perm.of_eq (List.map_congr_left ?_)
  intro p hp
  obtain ⟨h1, _, h3⟩ := hv.down d p (List.mem_filter.mp hp).1
  simp only [Function.comp]
  rw [h.row h1, h.below h3]

theorem sum_range_at {M : Type} [AddCommMonoid M] (k n : Nat) (a : M) :
    ((List.range n).map fun c => if k = c then a else 0).sum = if k < n then a else 0 := by
  induction n with
  | zero => simp
  | succ n ih =>
    rw [List.range_succ, List.map_append, List.sum_append, ih]
    by_cases h : k = n
    · simp [h]
    · by_cases h2 : k < n
      · simp [h, h2, Nat.lt_succ_of_lt h2]
      · simp [h, h2, show ¬ k < n + 1 by omega]

omit [AddCommMonoid R] in
theorem sum_cells {cols : List ((Nat × Nat) × Nat)} {n : Nat} (h : ∀ p ∈ cols, p.1.2 < n)
    (g : (Nat × Nat) × Nat → R) :
    ((List.range n).map fun c => (((cols.filter (fun p => p.1.2 == c)).map g : List R) : Multiset R)).sum =
      (cols.map g : List R) := by
  induction cols with
  | nil => simp
  | cons p cols ih =>
    have e : ∀ c, ((((p :: cols).filter (fun p => p.1.2 == c)).map g : List R) : Multiset R) =
        (if p.1.2 = c then ({g p} : Multiset R) else 0) +
          (((cols.filter (fun p => p.1.2 == c)).map g : List R) : Multiset R) := by
      intro c
      by_cases hc : p.1.2 = c
      · simp [List.filter_cons, hc]
      · simp [List.filter_cons, hc]
    simp only [e]
    rw [List.sum_map_add, sum_range_at, if_pos (h p (by simp)), ih fun q hq => h q (by simp [hq])]
    simp

theorem upRows_eq {vs : List (View R)} (h : ∀ v ∈ vs, v.InRange) (f : R → R → R) (d : Nat) :
    (upRows vs f d : Multiset R) = (allOf vs (upMsgs f) d).sum := by
  induction vs with
  | nil => rfl
  | cons v vs ih =>
    have := ih fun w hw => h w (by simp [hw])
    unfold upRows allOf at this ⊢
    rw [List.flatMap_cons, List.flatMap_cons, List.sum_append, ← this, ← Multiset.coe_add]
    congr 1
    exact (sum_cells (fun p hp => ((h v (by simp)).up d p hp).2.1) _).symm

theorem downRows_eq {vs : List (View R)} (h : ∀ v ∈ vs, v.InRange) (f : R → R → R) (d : Nat) :
    (downRows vs f d : Multiset R) = (allOf vs (downMsgs f) d).sum := by
  induction vs with
  | nil => rfl
  | cons v vs ih =>
    have := ih fun w hw => h w (by simp [hw])
    unfold downRows allOf at this ⊢
    rw [List.flatMap_cons, List.flatMap_cons, List.sum_append, ← this, ← Multiset.coe_add]
    congr 1
    exact (sum_cells (fun p hp => ((h v (by simp)).down d p hp).2.1) _).symm

/-- The complexes have the same messages and the same rows in dimension `d`, in some order. -/
structure SameRows (vs vs' : List (View R)) (d : Nat) : Prop where
  up : ∀ f, (upRows vs f d).Perm (upRows vs' f d)
  down : ∀ f, (downRows vs f d).Perm (downRows vs' f d)
  rows : ∀ r, (rowsOf vs r d).Perm (rowsOf vs' r d)

theorem SameRows.of_local {vs vs' : List (View R)} {d : Nat} (h : ∀ v ∈ vs, v.InRange) (h' : ∀ v ∈ vs', v.InRange)
    (hp : ∀ (α : Type) [AddCommMonoid α] (val : View R → Nat → Nat → α), IsLocal val →
      (allOf vs val d).Perm (allOf vs' val d)) : SameRows vs vs' d where
  up f := by
    rw [← Multiset.coe_eq_coe, upRows_eq h, upRows_eq h', (hp _ _ (isLocal_up f)).sum_eq]
  down f := by
    rw [← Multiset.coe_eq_coe, downRows_eq h, downRows_eq h', (hp _ _ (isLocal_down f)).sum_eq]
  rows r := hp _ _ (isLocal_newRow r)

theorem SameRows.freeze {vs vs' : List (View R)} {d : Nat} (h : SameRows vs vs' d) (l : CINTrain 𝕜 R) :
    l.freeze vs d = l.freeze vs' d := by
  simp only [CINTrain.freeze]
  rw [NormNet.freeze_perm l.upNorm (h.up _), NormNet.freeze_perm l.downNorm (h.down _),
    NormNet.freeze_perm l.norm (h.rows _)]

theorem SameRows.oneRow {vs vs' : List (View R)} {d : Nat} (h : SameRows vs vs' d) (l : CINTrain 𝕜 R) :
    l.OneRow vs d ↔ l.OneRow vs' d := by
  have e1 : ∀ vs : List (View R), upCount vs d = (upRows vs (fun x _ => x) d).length := by
    intro vs
    simp [upCount, upRows, List.length_flatMap]
  have e2 : ∀ vs : List (View R), downCount vs d = (downRows vs (fun x _ => x) d).length := by
    intro vs
    simp [downCount, downRows, List.length_flatMap]
  have e3 : ∀ vs : List (View R), cellCount vs d =
      (rowsOf vs ⟨fun x _ => x, fun x _ => x, id, fun x _ _ _ => x⟩ d).length := by
    intro vs
    simp [cellCount, rowsOf, List.length_flatMap]
  unfold CINTrain.OneRow
  rw [e1, e1, e2, e2, e3, e3, (h.up _).length_eq, (h.down _).length_eq, (h.rows _).length_eq]

/-- After any layers the complexes have the same messages and rows. -/
def AlikeAll (m : Nat) (vs vs' : List (View R)) : Prop :=
  ∀ layers d, SameRows (vs.map fun v => v.afterAll m layers) (vs'.map fun v => v.afterAll m layers) d

theorem AlikeAll.zero {m : Nat} {vs vs' : List (View R)} (h : AlikeAll m vs vs') (d : Nat) : SameRows vs vs' d := by
  have := h [] d
  simpa [View.afterAll] using this

theorem AlikeAll.layer {m : Nat} {vs vs' : List (View R)} (h : AlikeAll m vs vs') (rules : Nat → Rule R) :
    AlikeAll m (vs.map fun v => v.layer rules m true) (vs'.map fun v => v.layer rules m true) := by
  intro layers d
  rw [List.map_map, List.map_map]
  exact h (rules :: layers) d

theorem AlikeAll.freeze {m : Nat} {vs vs' : List (View R)} (h : AlikeAll m vs vs')
    (convs : List (List (CINTrain 𝕜 R))) :
    freezeConvs CINTrain.freeze CINLevel.rule m vs convs = freezeConvs CINTrain.freeze CINLevel.rule m vs' convs := by
  induction convs generalizing vs vs' with
  | nil => rfl
  | cons levels rest ih =>
    have hl : (levels.mapIdx fun d l => CINTrain.freeze l vs d) = levels.mapIdx fun d l => CINTrain.freeze l vs' d := by
      congr 1
      funext d l
      exact (h.zero d).freeze l
    simp only [freezeConvs, hl]
    rw [ih (h.layer _)]

theorem AlikeAll.trans {m : Nat} {vs vs' vs'' : List (View R)} (h : AlikeAll m vs vs') (h' : AlikeAll m vs' vs'') :
    AlikeAll m vs vs'' := fun layers d =>
  ⟨fun f => ((h layers d).up f).trans ((h' layers d).up f), fun f => ((h layers d).down f).trans ((h' layers d).down f),
    fun r => ((h layers d).rows r).trans ((h' layers d).rows r)⟩

theorem alikeAll_perm {m : Nat} {vs vs' : List (View R)} (h : vs'.Perm vs) : AlikeAll m vs' vs := by
  intro layers d
  exact ⟨fun f => (h.map _).flatMap_right _, fun f => (h.map _).flatMap_right _, fun r => (h.map _).flatMap_right _⟩

theorem alikeAll_relabels {m : Nat} {vs vs' : List (View R)}
    (h : List.Forall₂ (fun v w => ∃ φ, Relabels v w φ) vs vs') (hv : ∀ v ∈ vs, v.InRange) (hw : ∀ v ∈ vs', v.InRange) :
    AlikeAll m vs' vs := by
  intro layers d
  refine .of_local ?_ ?_ ?_
  · rw [List.forall_mem_map]
    exact fun v h => afterAll_inRange (hw v h) m layers
  · rw [List.forall_mem_map]
    exact fun v h => afterAll_inRange (hv v h) m layers
  intro α _ val hval
  clear hw
  induction h with
  | nil => exact .refl _
  | @cons v w vs vs' hc _ ih =>
    obtain ⟨φ, hφ⟩ := hc
    simp only [allOf, List.map_cons, List.flatMap_cons]
    refine List.Perm.append ?_ (ih fun v h => hv v (by simp [h]))
    have hvv := hv v (by simp)
    have hl := (hφ.localIso hvv).afterAll hvv m layers
    refine perm_of_rename (φ := φ d) ?_ ?_ ?_
    · simp only [List.length_map, List.length_range, afterAll_X_length, hφ.size]
    · simp only [List.length_map, List.length_range, afterAll_X_length]
      exact hφ.inj d
    · intro c hc
      simp only [List.length_map, List.length_range] at hc
      rw [List.getElem?_map, List.getElem?_range (hl.lt hc), List.getElem?_map, List.getElem?_range hc,
        Option.map_some, Option.map_some, hval _ _ _ hl (afterAll_inRange hvv m layers) d c hc]

/-- The batch and its complexes. -/
theorem alikeAll_batch {cs : List (Complex R L)} {mB : Nat} {B : Complex R L}
    (h : fromComplexList cs mB = .ok B) (hr : ∀ comp ∈ cs, comp.Ready) (m : Nat) :
    AlikeAll m [B.view] (cs.map fun c => c.view.upTo mB) := by
  intro layers d
  refine .of_local ?_ ?_ ?_
  · rw [List.forall_mem_map]
    intro v hv
    rw [List.mem_singleton] at hv
    subst hv
    exact afterAll_inRange (batch_runs h hr).range m layers
  · rw [List.forall_mem_map, List.forall_mem_map]
    exact fun c hc => afterAll_inRange (upTo_inRange (ready_inRange (hr c hc)) mB) m layers
  intro α _ val hval
  have hrow : ∀ v : View R, ((List.range ((v.afterAll m layers).X d).length).map
      (val (v.afterAll m layers) d)).length = (v.X d).length := by
    intro v
    rw [List.length_map, List.length_range, afterAll_X_length]
  refine List.Perm.of_eq ?_
  unfold allOf
  rw [List.map_singleton, List.flatMap_singleton, List.map_map, List.flatMap_map]
  by_cases hd : d ≤ mB
  · refine eq_flatMap_of_blocks (n := Complex.cellsIn d) ?_ ?_ ?_
    · intro c hc
      exact (hrow _).trans (upTo_X_length (hr c hc) hd)
    · rw [hrow, batch_X_length h hr hd]
    · intro i c hi k hk
      have hc := List.mem_of_getElem? hi
      have hv := upTo_inRange (ready_inRange (hr c hc)) mB
      have hl := (batch_localIso h hr hi).afterAll hv m layers
      have hk2 : k < (((c.view.upTo mB).afterAll m layers).X d).length := by
        rw [afterAll_X_length, upTo_X_length (hr c hc) hd]; exact hk
      have hlt := hl.lt hk2
      have hn := hval _ _ _ hl (afterAll_inRange hv m layers) d k hk2
      simp only [inBatch] at hlt hn
      rw [List.getElem?_map, List.getElem?_range hlt]
      simp only [Function.comp]
      rw [List.getElem?_map, List.getElem?_range hk2, Option.map_some, Option.map_some, hn]
  · have e1 : (B.view.X d) = [] := by
      refine view_X_none (List.getElem?_eq_none ?_)
      have := (batch_runs h hr).len
      have := (batch_dim_le h).1
      omega
    have e2 : (List.range ((B.view.afterAll m layers).X d).length).map (val (B.view.afterAll m layers) d) = [] := by
      rw [← List.length_eq_zero_iff, hrow, e1]; rfl
    rw [e2, eq_comm, List.flatMap_eq_nil_iff]
    intro c hc
    rw [← List.length_eq_zero_iff]
    refine (hrow _).trans ?_
    simp only [View.upTo, if_neg hd]
    rfl

/-! ### The layers -/

/-- Some level gets exactly one row to normalise. -/
def OneRowIn (v : View R) (levels : List (CINTrain 𝕜 R)) : Prop :=
  ∃ (d : Nat) (l : CINTrain 𝕜 R), levels[d]? = some l ∧ l.OneRow [v] d

theorem oneRow_layer (l : CINTrain 𝕜 R) (v : View R) (rules : Nat → Rule R) (m : Nat) (d : Nat) :
    l.OneRow [v.layer rules m true] d ↔ l.OneRow [v] d := by
  unfold CINTrain.OneRow upCount downCount cellCount
  simp only [List.map_singleton, List.sum_singleton, layer_X_length]
  rfl

omit [AddCommMonoid R] [Field 𝕜] [Module 𝕜 R] in
theorem not_oneRow {v : View R} (hv : v.InRange) {d : Nat} (h : v.X d = []) (l : CINTrain 𝕜 R) : ¬ l.OneRow [v] d := by
  unfold CINTrain.OneRow upCount downCount cellCount
  have h1 : v.up d = [] := by
    rw [List.eq_nil_iff_forall_not_mem]
    intro p hp
    have := (hv.up d p hp).1
    rw [h] at this
    simp at this
  have h2 : v.down d = [] := by
    rw [List.eq_nil_iff_forall_not_mem]
    intro p hp
    have := (hv.down d p hp).1
    rw [h] at this
    simp at this
  simp [h, h1, h2]

/-- A convolution in training mode. -/
theorem Complex.Runs.trainCIN {comp : Complex R L} (h : comp.Runs) {m : Nat} {levels : List (CINTrain 𝕜 R)}
    (hl : levels.length = m + 1) :
    (OneRowIn comp.view levels →
      (comp.getAllCochainParams m >>= convForward CINTrain.forward levels) = .error .value) ∧
    (¬ OneRowIn comp.view levels →
      (comp.getAllCochainParams m >>= convForward CINTrain.forward levels) =
        .ok ((List.range (min m comp.dimension + 1)).map
          (comp.view.layer (rulesOf CINLevel.rule (levels.mapIdx fun d l => l.freeze [comp.view] d)) m true).X)) := by
  classical
  have hp : ∀ d ∈ List.range (min m comp.dimension + 1), ∃ p,
      comp.getCochainParams d m = .ok p ∧ ParamsOf comp.view d true true p := by
    intro d hd
    have := List.mem_range.mp hd
    have := h.params (d := d) (by omega) m true true
    simpa using this
  obtain ⟨ps, hps⟩ : ∃ ps, comp.getAllCochainParams m = .ok ps := by
    unfold Complex.getAllCochainParams
    have : Nonempty (MPParams R) := ⟨{ x := none }⟩
    choose! g hg using hp
    exact ⟨_, mapE_ok fun d hd => (hg d hd).1⟩
  obtain ⟨hlen, hget⟩ := C11_all_params comp m true true true ps hps
  have hle : ps.length ≤ levels.length := by rw [hlen, hl]; omega
  have hfor : ∀ d p, ps[d]? = some p → ParamsOf comp.view d true true p := by
    intro d p hpd
    have hd : d < min m comp.dimension + 1 := by
      rw [← hlen]; exact (List.getElem?_eq_some_iff.mp hpd).1
    obtain ⟨p', hp1, hp2⟩ := hp d (List.mem_range.mpr hd)
    have := hget d _ hpd
    rw [hp1] at this
    cases this
    exact hp2
  have hconv : (comp.getAllCochainParams m >>= convForward CINTrain.forward levels) =
      mapE (fun lp => CINTrain.forward lp.1 lp.2) (levels.zip ps) := by
    rw [hps, ok_bind]
    unfold convForward
    rw [show decide (ps.length ≤ levels.length) = true by simpa using hle, pyAssert_true, ok_bind,
      convLoop_eq_mapE _ _ _ hle]
  rw [hconv]
  constructor
  · rintro ⟨d, l, hd, h1⟩
    have hdlt : d < ps.length := by
      rw [hlen]
      have := (List.getElem?_eq_some_iff.mp hd).1
      rw [hl] at this
      have hdd : ¬ comp.dimension < d := by
        intro hgt
        exact not_oneRow h.range (view_X_none (List.getElem?_eq_none (by rw [h.len]; omega))) l h1
      omega
    obtain ⟨p, hpd⟩ : ∃ p, ps[d]? = some p := ⟨_, List.getElem?_eq_getElem hdlt⟩
    have hsplit : ∀ lp ∈ levels.zip ps, CINTrain.forward lp.1 lp.2 = .error .value ∨
        ∃ b, CINTrain.forward lp.1 lp.2 = .ok b := by
      intro lp hlp
      obtain ⟨i, hi⟩ := List.getElem?_of_mem hlp
      rw [List.getElem?_zip_eq_some] at hi
      rw [trains_cin _ _ _ _ h.range (hfor i _ hi.2)]
      split
      · exact .inl rfl
      · exact .inr ⟨_, rfl⟩
    have hone : (l, p) ∈ levels.zip ps :=
      List.mem_of_getElem? (i := d) (by rw [List.getElem?_zip_eq_some]; exact ⟨hd, hpd⟩)
    have hval : CINTrain.forward l p = .error .value := by
      rw [trains_cin _ _ _ _ h.range (hfor d p hpd), if_pos h1]
    generalize levels.zip ps = zs at hsplit hone
    clear hconv
    induction zs with
    | nil => simp at hone
    | cons z zs ih =>
      rw [mapE_cons]
      rcases hsplit z (by simp) with hz | ⟨b, hz⟩
      · rw [hz]; rfl
      · rcases List.mem_cons.mp hone with rfl | hone
        · rw [hval] at hz; cases hz
        · rw [hz, ok_bind, ih (fun lp h => hsplit lp (by simp [h])) hone]; rfl
  · intro hno
    rw [mapE_eq_ok_iff]
    apply forall₂_of_get
    · simp [hlen, hl]
    · intro d lp out hlp hout
      rw [List.getElem?_zip_eq_some] at hlp
      obtain ⟨hlv, hpd⟩ := hlp
      have hd : d < min m comp.dimension + 1 := by
        rw [← hlen]; exact (List.getElem?_eq_some_iff.mp hpd).1
      rw [trains_cin _ _ _ _ h.range (hfor d _ hpd), if_neg fun hb => hno ⟨d, lp.1, hlv, hb⟩]
      rw [List.getElem?_map, List.getElem?_range hd] at hout
      cases hout
      rw [ok_inj]
      simp only [View.layer, rulesOf, List.getElem?_mapIdx, hlv, Option.map_some]
      rw [if_pos (by omega)]
      simp

/-- The layers in training mode, on a complex that runs. -/
theorem runConvs_trainCIN {m : Nat} {convs : List (List (CINTrain 𝕜 R))}
    (hl : ∀ conv ∈ convs, conv.length = m + 1) {comp : Complex R L} (h : comp.Runs) :
    ((∃ conv ∈ convs, OneRowIn comp.view conv) →
      runConvs (fun data => data.getAllCochainParams m) (convForward CINTrain.forward) comp convs =
        .error .value) ∧
    ((∀ conv ∈ convs, ¬ OneRowIn comp.view conv) →
      runConvs (fun data => data.getAllCochainParams m) (convForward CINTrain.forward) comp convs =
        runConvs (fun data => data.getAllCochainParams m) (convForward CINLevel.forward) comp
          (freezeConvs CINTrain.freeze CINLevel.rule m [comp.view] convs)) := by
  induction convs generalizing comp with
  | nil => exact ⟨by simp, fun _ => rfl⟩
  | cons conv convs ih =>
    obtain ⟨hbad, hgood⟩ := h.trainCIN (hl conv (by simp))
    have hw := h.withX (rulesOf CINLevel.rule (conv.mapIdx fun d l => l.freeze [comp.view] d)) m true
    have ih := ih (fun c hc => hl c (by simp [hc])) hw.1
    have hone : ∀ c : List (CINTrain 𝕜 R), OneRowIn (comp.withX (comp.view.layer (rulesOf CINLevel.rule
        (conv.mapIdx fun d l => l.freeze [comp.view] d)) m true).X).view c ↔ OneRowIn comp.view c := by
      intro c
      unfold OneRowIn
      rw [hw.2]
      simp only [oneRow_layer]
    simp only [hone] at ih
    by_cases h1 : OneRowIn comp.view conv
    · refine ⟨fun _ => ?_, fun hno => absurd h1 (hno conv (by simp))⟩
      unfold runConvs
      have := hbad h1
      cases hps : comp.getAllCochainParams m with
      | error e =>
        rw [hps] at this
        cases this
        rfl
      | ok ps =>
        rw [hps, ok_bind] at this
        rw [ok_bind, this]
        rfl
    · have hc := hgood h1
      have hc' := h.conv realises_cin (m := m) (top := true)
        (levels := conv.mapIdx fun d l => l.freeze [comp.view] d)
        ⟨by rw [List.length_mapIdx]; exact hl conv (by simp), fun _ _ _ _ => by simp⟩
      obtain ⟨ps, hps, hc⟩ := bind_eq_ok.mp hc
      rw [hps, ok_bind] at hc'
      simp only [freezeConvs]
      unfold runConvs
      rw [hps, ok_bind, hc, ok_bind, h.write _ m true, ok_bind]
      constructor
      · rintro ⟨c, hmem, hrow⟩
        rcases List.mem_cons.mp hmem with rfl | hmem
        · exact absurd hrow h1
        · rw [ih.1 ⟨c, hmem, hrow⟩]; rfl
      · intro hno
        rw [ok_bind, hc', ok_bind, h.write _ m true, ok_bind, ih.2 fun c hc => hno c (by simp [hc]), hw.2]
        rfl

theorem CINNet.Fits.frozen {net : CINNet R (CINTrain 𝕜 R)} (h : net.Fits) (vs : List (View R)) :
    (net.frozen CINTrain.freeze CINLevel.rule vs).Fits := by
  have := freezeConvs_length (freeze := CINTrain.freeze) (rule := CINLevel.rule) net.maxDim vs net.convs _ h.levels
  refine ⟨?_, this.2, h.readout⟩
  intro he
  have h2 : (freezeConvs CINTrain.freeze CINLevel.rule net.maxDim vs net.convs).length = 0 := by
    rw [List.length_eq_zero_iff]; exact he
  rw [this.1, List.length_eq_zero_iff] at h2
  exact h.layers h2

/-- The network in training mode on a batch. -/
theorem CINNet.forward_train {net : CINNet R (CINTrain 𝕜 R)} (hn : net.Fits) {cs : List (Complex R L)}
    (hr : ∀ c ∈ cs, c.Ready) {mB : Nat} {B : Complex R L} (hB : fromComplexList cs mB = .ok B) :
    (net.LonelyRow (cs.map fun c => c.view.upTo mB) → net.forward 𝕜 CINTrain.forward B = .error .value) ∧
    (¬ net.LonelyRow (cs.map fun c => c.view.upTo mB) → net.forward 𝕜 CINTrain.forward B =
      (net.frozen CINTrain.freeze CINLevel.rule (cs.map fun c => c.view.upTo mB)).forward 𝕜 CINLevel.forward B) := by
  obtain ⟨h1, h2⟩ := runConvs_trainCIN hn.levels (batch_runs hB hr)
  have hal := alikeAll_batch hB hr net.maxDim
  have hone : ∀ conv : List (CINTrain 𝕜 R), OneRowIn B.view conv ↔
      ∃ (d : Nat) (l : CINTrain 𝕜 R), conv[d]? = some l ∧ l.OneRow (cs.map fun c => c.view.upTo mB) d := by
    intro conv
    unfold OneRowIn
    simp only [(hal.zero _).oneRow]
  constructor
  · rintro ⟨conv, hc, h⟩
    unfold CINNet.forward
    rw [h1 ⟨conv, hc, (hone conv).mpr h⟩]
    rfl
  · intro h
    unfold CINNet.forward
    rw [h2 fun conv hc ho => h ⟨conv, hc, (hone conv).mp ho⟩, hal.freeze]
    rfl

/-! ### Adjacencies come in both directions -/

omit [AddCommMonoid R] in
theorem View.FromFaces.up_ne_one {v : View R} (h : v.FromFaces) (d : Nat) : (v.up d).length ≠ 1 := by
  intro h1
  obtain ⟨⟨⟨a, b⟩, c⟩, hp⟩ := List.length_eq_one_iff.mp h1
  have hm := (h.up d a b c).mp (by rw [hp]; simp)
  have := (h.up d b a c).mpr ⟨hm.1.symm, hm.2.2, hm.2.1⟩
  rw [hp] at this
  simp only [List.mem_singleton, Prod.mk.injEq, and_true] at this
  exact hm.1 this.2

omit [AddCommMonoid R] in
theorem View.FromFaces.down_ne_one {v : View R} (h : v.FromFaces) (d : Nat) : (v.down d).length ≠ 1 := by
  intro h1
  obtain ⟨⟨⟨a, b⟩, c⟩, hp⟩ := List.length_eq_one_iff.mp h1
  have hm := (h.down d a b c).mp (by rw [hp]; simp)
  have := (h.down d b a c).mpr ⟨hm.1.symm, hm.2.2, hm.2.1⟩
  rw [hp] at this
  simp only [List.mem_singleton, Prod.mk.injEq, and_true] at this
  exact hm.1 this.2

theorem sum_ne_one {l : List Nat} (h : ∀ k ∈ l, k ≠ 1) : l.sum ≠ 1 := by
  induction l with
  | nil => simp
  | cons k l ih =>
    have h1 := h k (by simp)
    have h2 := ih fun k hk => h k (by simp [hk])
    rw [List.sum_cons]
    omega

end Verif
