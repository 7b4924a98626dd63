import Verif.Spec.Models
import Verif.Lemmas.BatchRun

/-!
# Networks compute the specified predictions
-/

namespace Verif

variable {𝕜 R L : Type}

/-! ### Batch vectors -/

theorem batchLoop_ne {cs : List (Cochain R L)} {i l : Nat} {r : List (List Nat) × List Nat}
    (h : batchLoop i l cs = .ok r) (hc : ∃ c ∈ cs, ∃ n, c.numCells = .ok (some n)) : r.1 ≠ [] := by
  induction cs generalizing i l r with
  | nil => simp at hc
  | cons c cs ih =>
    unfold batchLoop at h
    obtain ⟨n, hn, h⟩ := bind_eq_ok.mp h
    cases n with
    | some n =>
      obtain ⟨r', _, h⟩ := bind_eq_ok.mp h
      simp only [pure_eq_ok, ok_inj] at h
      rw [← h]; simp
    | none =>
      refine ih h ?_
      obtain ⟨c', hc', n, hn'⟩ := hc
      rcases List.mem_cons.mp hc' with rfl | hc'
      · rw [hn] at hn'; simp at hn'
      · exact ⟨c', hc', n, hn'⟩

/-- The batch vector of dimension `d`: the number of the complex, once per cell. -/
theorem batch_vec {cs : List (Complex R L)} {m : Nat} {B : Complex R L}
    (h : fromComplexList cs m = .ok B) (hr : ∀ comp ∈ cs, comp.Ready) {d : Nat}
    (hd : d ≤ B.dimension) :
    B.attr d Cochain.batch =
      some (cs.zipIdx.flatMap fun ci => List.replicate (ci.1.cellsIn d) ci.2) := by
  have hlt : d < B.cochains.length := by rw [(fromComplexList_inv h).coherent.len]; omega
  have hb := List.getElem?_eq_getElem hlt
  generalize B.cochains[d] = b at hb
  rw [attr_of hb]
  obtain ⟨b0, u, l, h0, rfl⟩ := (fromComplexList_inv h).cochain d b hb
  obtain ⟨r, hrr, hb', -⟩ := (fromCochainList_inv h0).segs
  show b0.batch = _
  have hne : r.1 ≠ [] := by
    refine batchLoop_ne hrr ?_
    obtain ⟨_, top, htop, htopd⟩ := batch_dim_le h
    have hlt : d < top.cochains.length := by rw [(hr top htop).valid.len]; omega
    have htc := List.getElem?_eq_getElem hlt
    obtain ⟨n, hn⟩ := (hr top htop).valid.known _ (List.mem_of_getElem? htc)
    exact ⟨orEmpty d top, List.mem_map_of_mem htop, n, by rw [orEmpty_of_some htc]; exact hn⟩
  rw [hb', if_neg (by simpa using hne), batchLoop_flatten hrr, List.zipIdx_map, List.flatMap_map]
  congr 1
  apply List.flatMap_congr
  intro ci _
  simp [count_orEmpty]

/-! ### The loop over the layers -/

section
variable [AddCommMonoid R]

theorem withX_batch (comp : Complex R L) (f : Nat → List R) (d : Nat) :
    (comp.withX f).attr d Cochain.batch = comp.attr d Cochain.batch :=
  withX_attr comp f d Cochain.batch (fun _ _ => rfl)

/-- The layers of a network on a complex that runs. -/
theorem runConvs_ok {Lv : Type} {forward : Lv → MPParams R → Py (List R)} {rule : Lv → Rule R}
    {needs : Lv → Prop} {top down : Bool} (hr : Realises forward rule needs down) {m : Nat}
    {convs : List (List Lv)} (hl : ∀ conv ∈ convs, FitLevels needs m top conv) {comp : Complex R L}
    (h : comp.Runs) :
    ∃ data, runConvs (fun data => data.getAllCochainParams m top down) (convForward forward) comp
        convs = .ok (data, (comp.view.run m top (convs.map (rulesOf rule))).map fun w =>
          (List.range (min m comp.dimension + 1)).map w.X) ∧
      data.dimension = comp.dimension ∧ data.cochains.length = comp.cochains.length ∧
      ∀ d, data.attr d Cochain.batch = comp.attr d Cochain.batch := by
  induction convs generalizing comp with
  | nil => exact ⟨comp, rfl, rfl, rfl, fun _ => rfl⟩
  | cons conv convs ih =>
    have hc := h.conv hr (hl conv (by simp))
    obtain ⟨ps, hps, hc⟩ := bind_eq_ok.mp hc
    have hw := h.withX (rulesOf rule conv) m top
    obtain ⟨data, h1, h2, h3, h4⟩ := ih (fun c hc => hl c (by simp [hc])) hw.1
    refine ⟨data, ?_, h2.trans rfl, h3.trans (by simp [Complex.withX]), ?_⟩
    · unfold runConvs
      rw [hps, ok_bind, hc, ok_bind, h.write (rulesOf rule conv) m top, ok_bind, h1, ok_bind, hw.2]
      rfl
    · intro d
      rw [h4, withX_batch]

/-! ### Final rows -/

omit [AddCommMonoid R] in
theorem jumpAppend_map {A X : Type} (l : List A) (g : A → List X) (x : A → X) :
    jumpAppend (l.map g) (l.map x) = .ok (l.map fun a => g a ++ [x a]) := by
  induction l with
  | nil => rfl
  | cons a l ih => simp [jumpAppend, ih, ok_bind]

omit [AddCommMonoid R] in
theorem jumpLoop_map {A W X : Type} (l : List A) (vs : List W) (g : A → List X) (x : W → A → X) :
    jumpLoop (l.map g) (vs.map fun w => l.map (x w)) =
      .ok (l.map fun a => g a ++ vs.map fun w => x w a) := by
  induction vs generalizing g with
  | nil => simp [jumpLoop]
  | cons w vs ih =>
    rw [List.map_cons, jumpLoop, jumpAppend_map, ok_bind, ih]
    simp

omit [AddCommMonoid R] in
theorem collectJump_map {A W X : Type} (l : List A) {vs : List W} (hv : vs ≠ []) (x : W → A → X) :
    collectJump (vs.map fun w => l.map (x w)) = .ok (l.map fun a => vs.map fun w => x w a) := by
  cases vs with
  | nil => exact absurd rfl hv
  | cons w vs =>
    have := jumpLoop_map l (w :: vs) (fun _ => []) x
    simp only [List.nil_append] at this
    rw [← this]
    simp [collectJump]

theorem filterMap_rowOf {l : List (View R)} {d n k : Nat} (h : ∀ w ∈ l, (w.X d).length = n)
    (hk : k < n) : (l.map fun w => w.X d).filterMap (fun y => y[k]?) =
      l.map fun w => rowOf (w.X d) k := by
  induction l with
  | nil => rfl
  | cons w l ih =>
    have hw : k < (w.X d).length := by rw [h w (by simp)]; exact hk
    rw [List.map_cons, List.filterMap_cons_some (f := fun y : List R => y[k]?) (List.getElem?_eq_getElem hw),
      ih (fun w hw => h w (by simp [hw]))]
    simp [rowOf, List.getElem?_eq_getElem hw]

theorem finalRows_ok {vs : List (View R)} (hv : vs ≠ []) (v : View R)
    (hX : ∀ w ∈ vs, ∀ d, (w.X d).length = (v.X d).length) (jump : Option (List R → R)) (k : Nat) :
    finalRows jump (vs.map fun w => (List.range k).map w.X) =
      .ok ((List.range k).map (v.final jump vs)) := by
  cases jump with
  | none =>
    have hl := List.getLast?_eq_some_getLast hv
    have hmem := List.getLast_mem hv
    simp only [finalRows, List.getLast?_map, hl, Option.map_some, ok_inj]
    apply List.map_congr_left
    intro d _
    unfold View.final finalRow
    rw [hl]
    apply List.ext_getElem?
    intro c
    by_cases hc : c < (v.X d).length
    · rw [List.getElem?_map, List.getElem?_range hc]
      have : c < ((vs.getLast hv).X d).length := by rw [hX _ hmem]; exact hc
      simp [rowOf, List.getElem?_eq_getElem this]
    · rw [List.getElem?_eq_none (by rw [hX _ hmem]; omega), List.getElem?_eq_none (by simpa using hc)]
  | some f =>
    have := collectJump_map (List.range k) hv (fun w d => View.X w d)
    simp only [finalRows]
    rw [this, ok_bind, mapE_map, mapE_ok (g := v.final (some f) vs)]
    intro d _
    cases vs with
    | nil => exact absurd rfl hv
    | cons w vs =>
      simp only [List.map_cons, jumpRows]
      rw [if_pos, ok_inj]
      · unfold View.final
        rw [hX w (by simp)]
        apply List.map_congr_left
        intro c hc
        have := filterMap_rowOf (l := w :: vs) (d := d) (fun w hw => hX w hw d) (List.mem_range.mp hc)
        rw [List.map_cons] at this
        rw [this]
        rfl
      · simp only [List.all_map, List.all_eq_true, Function.comp, beq_iff_eq]
        intro w' hw'
        rw [hX w' (by simp [hw']), hX w (by simp)]

/-! ### Final rows of batches and renumbered complexes -/

theorem LocalIso.finalRow {v w : View R} {φ : Nat → Nat → Nat} (h : LocalIso v w φ) (hv : v.InRange)
    (layers : List (Nat → Rule R)) (m : Nat) (top : Bool) (jump : Option (List R → R)) {d c : Nat}
    (hc : c < (v.X d).length) :
    finalRow jump (w.run m top layers) d (φ d c) = finalRow jump (v.run m top layers) d c := by
  have hrun := h.run hv layers m top
  have hmap : ∀ {vs ws : List (View R)},
      List.Forall₂ (fun v' w' => LocalIso v' w' φ ∧ ∀ d, (v'.X d).length = (v.X d).length) vs ws →
      (ws.map fun w => rowOf (w.X d) (φ d c)) = vs.map fun w => rowOf (w.X d) c := by
    intro vs ws hvw
    induction hvw with
    | nil => rfl
    | cons hab _ ih => rw [List.map_cons, List.map_cons, ih, hab.1.row (by rw [hab.2]; exact hc)]
  have he := hmap hrun
  cases jump with
  | some f => simp only [Verif.finalRow, he]
  | none =>
    simp only [Verif.finalRow]
    rw [← List.getLast?_map, ← List.getLast?_map, he]

theorem final_length (v : View R) (jump : Option (List R → R)) (vs : List (View R)) (d : Nat) :
    (v.final jump vs d).length = (v.X d).length := by simp [View.final]

theorem LocalIso.final {v w : View R} {φ : Nat → Nat → Nat} (h : LocalIso v w φ) (hv : v.InRange)
    (layers : List (Nat → Rule R)) (m : Nat) (top : Bool) (jump : Option (List R → R)) {d c : Nat}
    (hc : c < (v.X d).length) :
    (w.final jump (w.run m top layers) d)[φ d c]? = (v.final jump (v.run m top layers) d)[c]? := by
  unfold View.final
  rw [List.getElem?_map, List.getElem?_map, List.getElem?_range hc, List.getElem?_range (h.lt hc)]
  simp [h.finalRow hv layers m top jump hc]

/-- The final rows of a batch are the final rows of the complexes. -/
theorem batch_final {cs : List (Complex R L)} {mB : Nat} {B : Complex R L}
    (h : fromComplexList cs mB = .ok B) (hr : ∀ comp ∈ cs, comp.Ready)
    (layers : List (Nat → Rule R)) (m : Nat) (top : Bool) (jump : Option (List R → R)) {d : Nat}
    (hd : d ≤ mB) :
    B.view.final jump (B.view.run m top layers) d =
      cs.flatMap fun c => (c.view.upTo mB).final jump ((c.view.upTo mB).run m top layers) d := by
  have hlen : ∀ c ∈ cs,
      ((c.view.upTo mB).final jump ((c.view.upTo mB).run m top layers) d).length = c.cellsIn d := by
    intro c hc
    rw [final_length]
    simp only [View.upTo, if_pos hd]
    exact ready_X_length (hr c hc) d
  refine eq_flatMap_of_blocks (n := Complex.cellsIn d) hlen ?_ ?_
  · rw [final_length, batch_X_length h hr hd]
  · intro i c hi k hk
    have hc := List.mem_of_getElem? hi
    have := (batch_localIso h hr hi).final (upTo_inRange (ready_inRange (hr c hc)) mB) layers m top
      jump (d := d) (c := k) (by
        rw [← final_length _ jump ((c.view.upTo mB).run m top layers), hlen c hc]
        exact hk)
    exact this

omit [AddCommMonoid R] in
theorem perm_of_rename {rows rows' : List R} {φ : Nat → Nat} (hl : rows'.length = rows.length)
    (hinj : ∀ c e, c < rows.length → e < rows.length → φ c = φ e → c = e)
    (h : ∀ c, c < rows.length → rows'[φ c]? = rows[c]?) : rows'.Perm rows := by
  have hlt : ∀ c, c < rows.length → φ c < rows.length := by
    intro c hc
    have := h c hc
    rw [List.getElem?_eq_getElem hc] at this
    rw [← hl]
    exact (List.getElem?_eq_some_iff.mp this).1
  have hp : ((List.range rows.length).map φ).Perm (List.range rows.length) := by
    have hnd : ((List.range rows.length).map φ).Nodup := by
      refine List.Nodup.map_on ?_ List.nodup_range
      intro c hc e he
      exact hinj c e (List.mem_range.mp hc) (List.mem_range.mp he)
    have hsub : (List.range rows.length).map φ ⊆ List.range rows.length := by
      intro k hk
      obtain ⟨c, hc, rfl⟩ := List.mem_map.mp hk
      exact List.mem_range.mpr (hlt c (List.mem_range.mp hc))
    exact (List.subperm_of_subset hnd hsub).perm_of_length_le (by simp)
  have e1 : rows' = (List.range rows.length).filterMap (fun k => rows'[k]?) := by
    apply List.ext_getElem?
    intro k
    rw [filterMap_total_get]
    · by_cases hk : k < rows.length
      · rw [List.getElem?_range hk]; rfl
      · rw [List.getElem?_eq_none (by omega), List.getElem?_eq_none (by simpa using hk)]; rfl
    · intro a ha
      have : a < rows'.length := by rw [hl]; exact List.mem_range.mp ha
      simp [List.getElem?_eq_getElem this]
  have e2 : rows = ((List.range rows.length).map φ).filterMap (fun k => rows'[k]?) := by
    rw [List.filterMap_map]
    apply List.ext_getElem?
    intro k
    rw [filterMap_total_get]
    · by_cases hk : k < rows.length
      · rw [List.getElem?_range hk]; exact (h k hk).symm
      · rw [List.getElem?_eq_none (by omega), List.getElem?_eq_none (by simpa using hk)]; rfl
    · intro a ha
      simp only [Function.comp, h a (List.mem_range.mp ha)]
      simp [List.getElem?_eq_getElem (List.mem_range.mp ha)]
  rw [e1]
  conv_rhs => rw [e2]
  exact (hp.filterMap _).symm

/-- The final rows of a renumbered complex are the final rows, in some order. -/
theorem Relabels.final {v w : View R} {φ : Nat → Nat → Nat} (h : Relabels v w φ) (hv : v.InRange)
    (layers : List (Nat → Rule R)) (m : Nat) (top : Bool) (jump : Option (List R → R)) (d : Nat) :
    (w.final jump (w.run m top layers) d).Perm (v.final jump (v.run m top layers) d) := by
  apply perm_of_rename (φ := φ d)
  · rw [final_length, final_length, h.size]
  · intro c e hc he
    rw [final_length] at hc he
    exact h.inj d c e hc he
  · intro c hc
    rw [final_length] at hc
    exact (h.localIso hv).final hv layers m top jump hc

end

/-! ### Pooling -/

section
variable [Field 𝕜] [AddCommMonoid R] [Module 𝕜 R]

theorem poolOf_perm (readout : String) {l l' : List R} (h : l.Perm l') :
    poolOf 𝕜 readout l = poolOf 𝕜 readout l' := by
  unfold poolOf
  rw [h.sum_eq, h.length_eq]

theorem getPoolingFn_ok {readout : String} (h : readout = "sum" ∨ readout = "mean") :
    ∃ pool, getPoolingFn readout = .ok pool ∧
      ∀ rows : List R, pool.agg 𝕜 rows = poolOf 𝕜 readout rows := by
  rcases h with rfl | rfl
  · exact ⟨.sum, rfl, fun rows => by simp [poolOf, Pooling.agg, aggAdd]⟩
  · exact ⟨.mean, rfl, fun rows => by simp [poolOf, Pooling.agg, aggMean]⟩

theorem poolOf_nil (readout : String) : poolOf 𝕜 readout ([] : List R) = 0 := by
  unfold poolOf; split <;> simp

/-- The rows of the complexes, separated by the batch vector. -/
theorem rows_of_complex {C : Type} {cs : List C} {n : C → Nat} {f : C → List R}
    (hf : ∀ c ∈ cs, (f c).length = n c) {i : Nat} {c : C} (hi : cs[i]? = some c) :
    (((cs.zipIdx.flatMap fun ci => List.replicate (n ci.1) ci.2).zip (cs.flatMap f)).filter
      (fun p => p.1 == i)).map Prod.snd = f c := by
  have e : cs.flatMap f = cs.zipIdx.flatMap fun ci => f ci.1 := by
    conv_lhs => rw [← List.zipIdx_map_fst 0 cs]
    rw [List.flatMap_map]
  rw [e, zip_flatMap_blocks]
  · rw [filter_flatMap_block (f := fun (c : C) j => (List.replicate (n c) j).zip (f c)) hi]
    · have hall : ∀ p ∈ (List.replicate (n c) i).zip (f c), (p.1 == i) = true := by
        intro p hp
        have := List.of_mem_zip hp
        rw [List.mem_replicate] at this
        simp [this.1.2]
      rw [List.filter_eq_self.mpr hall, List.map_snd_zip]
      rw [hf c (List.mem_of_getElem? hi)]; simp
    · intro j c' _ hne p hp
      have := List.of_mem_zip hp
      rw [List.mem_replicate] at this
      simp [this.1.2, hne]
  · intro ci hci
    have := mem_of_mem_zipIdx' hci
    simp [hf ci.1 (List.mem_of_getElem? this)]

theorem mem_batch_vec {C : Type} {cs : List C} {n : C → Nat} {i : Nat} :
    i ∈ (cs.zipIdx.flatMap fun ci => List.replicate (n ci.1) ci.2) ↔
      ∃ c, cs[i]? = some c ∧ 0 < n c := by
  simp only [List.mem_flatMap, List.mem_replicate]
  constructor
  · rintro ⟨ci, hci, hn, rfl⟩
    exact ⟨ci.1, mem_of_mem_zipIdx' hci, Nat.pos_of_ne_zero hn⟩
  · rintro ⟨c, hc, hn⟩
    exact ⟨(c, i), List.mk_mem_zipIdx_iff_getElem?.mpr hc, Nat.pos_iff_ne_zero.mp hn, rfl⟩

/-- The number of rows after pooling: the place of the last complex with a vertex, plus one. -/
theorem batchSize_ok {front rest : List (Complex R L)} {last : Complex R L} {data : Complex R L}
    (hb : data.attr 0 Cochain.batch = some ((front ++ last :: rest).zipIdx.flatMap fun ci =>
      List.replicate (ci.1.cellsIn 0) ci.2))
    (hlast : 0 < last.cellsIn 0) (hrest : ∀ c ∈ rest, c.cellsIn 0 = 0) :
    batchSize data = .ok (front.length + 1) := by
  unfold batchSize
  unfold Complex.attr at hb
  cases hc : data.cochains[0]? with
  | none => rw [hc] at hb; simp at hb
  | some c =>
    rw [hc] at hb
    have hb : c.batch = _ := hb
    dsimp only
    rw [hb]
    dsimp only
    unfold Cochain.maxPlusOne
    have : ((front ++ last :: rest).zipIdx.flatMap fun ci =>
        List.replicate (ci.1.cellsIn 0) ci.2).max? = some front.length := by
      rw [List.max?_eq_some_iff]
      constructor
      · rw [mem_batch_vec (n := Complex.cellsIn 0)]
        exact ⟨last, by simp, hlast⟩
      · intro i hi
        rw [mem_batch_vec (n := Complex.cellsIn 0)] at hi
        obtain ⟨c, hc, hn⟩ := hi
        by_contra hlt
        have hm : c ∈ rest := by
          rw [List.getElem?_append_right (by omega)] at hc
          obtain ⟨k, hk⟩ : ∃ k, i - front.length = k + 1 := ⟨i - front.length - 1, by omega⟩
          rw [hk, List.getElem?_cons_succ] at hc
          exact List.mem_of_getElem? hc
        rw [hrest c hm] at hn
        exact absurd hn (by omega)
    rw [this]

/-- Pooling the rows of the complexes of a batch. -/
theorem poolComplex_ok {front rest : List (Complex R L)} {last data : Complex R L} {k m : Nat}
    (hb : ∀ d, d < k → data.attr d Cochain.batch = some ((front ++ last :: rest).zipIdx.flatMap
      fun ci => List.replicate (ci.1.cellsIn d) ci.2))
    (hlast : 0 < last.cellsIn 0) (hrest : ∀ c ∈ rest, ∀ d, d < k → c.cellsIn d = 0) (hk0 : 0 < k)
    (hkm : k ≤ m + 1) (pool : Pooling) (X : Complex R L → Nat → List R)
    (hX : ∀ c ∈ front ++ last :: rest, ∀ d, d < k → (X c d).length = c.cellsIn d)
    (hX0 : ∀ c ∈ front ++ [last], ∀ d, k ≤ d → X c d = []) :
    poolComplex 𝕜 pool data m
        ((List.range k).map fun d => (front ++ last :: rest).flatMap fun c => X c d) =
      .ok ((List.range (m + 1)).map fun d => (front ++ [last]).map fun c => pool.agg 𝕜 (X c d)) := by
  unfold poolComplex
  rw [batchSize_ok (hb 0 hk0) hlast (fun c hc => hrest c hc 0 hk0), ok_bind, if_neg (by simp; omega)]
  have hmap : mapE (poolDim 𝕜 pool data m (front.length + 1))
      ((List.range k).map fun d => (front ++ last :: rest).flatMap fun c => X c d).zipIdx =
      .ok ((List.range k).map fun d => (front ++ [last]).map fun c => pool.agg 𝕜 (X c d)) := by
    have hz : ((List.range k).map fun d => (front ++ last :: rest).flatMap fun c => X c d).zipIdx =
        (List.range k).map fun d => ((front ++ last :: rest).flatMap (fun c => X c d), d) := by
      apply List.ext_getElem?
      intro i
      rw [List.getElem?_zipIdx, List.getElem?_map, List.getElem?_map]
      by_cases hi : i < k
      · rw [List.getElem?_range hi]; simp
      · rw [List.getElem?_eq_none (by simpa using hi)]; rfl
    rw [hz, mapE_map, mapE_ok]
    intro d hd
    have hd := List.mem_range.mp hd
    unfold poolDim
    have hbd := hb d hd
    unfold Complex.attr at hbd
    cases hc : data.cochains[d]? with
    | none => rw [hc] at hbd; simp at hbd
    | some c =>
      rw [hc] at hbd
      have hbd : c.batch = _ := hbd
      dsimp only
      rw [hbd]
      dsimp only
      rw [scatter_ok, ok_bind, if_pos (by omega)]
      · simp only [pure_eq_ok, ok_inj]
        apply List.ext_getElem?
        intro i
        rw [List.getElem?_map, List.getElem?_map]
        by_cases hi : i < front.length + 1
        · rw [List.getElem?_range hi]
          have hlt : i < (front ++ [last]).length := by simpa using hi
          have hi' : (front ++ [last])[i]? = some (front ++ [last])[i] := List.getElem?_eq_getElem hlt
          have hi2 : (front ++ last :: rest)[i]? = some (front ++ [last])[i] := by
            rw [← hi', show front ++ last :: rest = (front ++ [last]) ++ rest by simp,
              List.getElem?_append_left hlt]
          rw [hi', Option.map_some, Option.map_some,
            rows_of_complex (n := Complex.cellsIn d) (fun c hc => hX c hc d hd) hi2]
        · rw [List.getElem?_eq_none (by simpa using hi), List.getElem?_eq_none (by simpa using hi)]
          rfl
      · have hlen : ∀ (l : List (Complex R L)) (s : Nat), (∀ c ∈ l, (X c d).length = c.cellsIn d) →
            ((l.zipIdx s).flatMap fun ci => List.replicate (ci.1.cellsIn d) ci.2).length =
            (l.flatMap fun c => X c d).length := by
          intro l
          induction l with
          | nil => intro s _; rfl
          | cons a l ih =>
            intro s hl
            rw [List.zipIdx_cons, List.flatMap_cons, List.flatMap_cons, List.length_append,
              List.length_append, ih (s + 1) (fun c hc => hl c (by simp [hc])),
              hl a (by simp), List.length_replicate]
        exact hlen _ 0 (fun c hc => hX c hc d hd)
      · intro i hi
        rw [mem_batch_vec (n := Complex.cellsIn d)] at hi
        obtain ⟨c, hc, hn⟩ := hi
        by_contra hlt
        have hm : c ∈ rest := by
          rw [List.getElem?_append_right (by omega)] at hc
          obtain ⟨j, hj⟩ : ∃ j, i - front.length = j + 1 := ⟨i - front.length - 1, by omega⟩
          rw [hj, List.getElem?_cons_succ] at hc
          exact List.mem_of_getElem? hc
        rw [hrest c hm d hd] at hn
        exact absurd hn (by omega)
  rw [hmap, ok_bind]
  simp only [pure_eq_ok, ok_inj, List.length_map, List.length_range]
  rw [show m + 1 = k + (m + 1 - k) by omega, List.range_add, List.map_append]
  congr 1
  rw [List.map_map]
  apply List.ext_getElem?
  intro i
  rw [List.getElem?_map]
  rw [show k + (m + 1 - k) - k = m + 1 - k by omega]
  by_cases hi : i < m + 1 - k
  · rw [List.getElem?_range hi, List.getElem?_replicate, if_pos hi]
    simp only [Option.map_some, Function.comp, Option.some.injEq, zeroRows]
    have : ∀ c ∈ front ++ [last], pool.agg 𝕜 (X c (k + i)) = 0 := by
      intro c hc
      rw [hX0 c hc (k + i) (by omega)]
      cases pool <;> simp [Pooling.agg, aggAdd, aggMean]
    rw [List.map_congr_left this, List.map_const', List.length_append]
    rfl
  · rw [List.getElem?_eq_none (by simpa using hi), List.getElem?_eq_none (by simpa using hi)]
    rfl

/-! ### Stacking -/

theorem filterMap_col {A B : Type} {l : List A} {cs : List B} {g : A → B → R} {k : Nat} {b : B}
    (hk : cs[k]? = some b) :
    (l.map fun a => cs.map (g a)).filterMap (fun y => y[k]?) = l.map fun a => g a b := by
  induction l with
  | nil => rfl
  | cons a l ih =>
    have : (cs.map (g a))[k]? = some (g a b) := by rw [List.getElem?_map, hk]; rfl
    rw [List.map_cons, List.filterMap_cons_some (f := fun y : List R => y[k]?) this, ih, List.map_cons]

theorem stackReduce_ok {A B : Type} {l : List A} (hl : l ≠ []) {cs : List B} {g : A → B → R}
    {final : String} (hf : final = "sum" ∨ final = "mean") :
    stackReduce 𝕜 final (l.map fun a => cs.map (g a)) =
      .ok (cs.map fun b => poolOf 𝕜 final (l.map fun a => g a b)) := by
  cases l with
  | nil => exact absurd rfl hl
  | cons a l =>
    have hall : ((l.map fun a => cs.map (g a)).all fun y => y.length == (cs.map (g a)).length) = true := by
      simp
    have hcol : ∀ (agg : List R → R),
        ((List.range (cs.map (g a)).length).map fun k =>
          agg (((a :: l).map fun a => cs.map (g a)).filterMap fun y => y[k]?)) =
        cs.map fun b => agg ((a :: l).map fun a => g a b) := by
      intro agg
      apply List.ext_getElem?
      intro k
      rw [List.getElem?_map, List.getElem?_map]
      by_cases hk : k < cs.length
      · rw [List.getElem?_range (by simpa using hk), List.getElem?_eq_getElem hk]
        simp only [Option.map_some]
        rw [filterMap_col (List.getElem?_eq_getElem hk)]
      · rw [List.getElem?_eq_none (by simpa using hk), List.getElem?_eq_none (by omega)]; rfl
    have hc := hcol
    simp only [List.map_cons] at hc
    simp only [List.map_cons, stackReduce]
    rw [if_pos hall]
    rcases hf with rfl | rfl
    · rw [if_neg (by decide), if_pos rfl, ok_inj]
      rw [hc List.sum]
      simp [poolOf]
    · rw [if_pos rfl, ok_inj]
      rw [hc (aggMean (𝕜 := 𝕜))]
      simp [poolOf, aggMean]

theorem upTo_X_nil_of_gt {B comp : Complex R L} {cs : List (Complex R L)} {mB : Nat}
    (h : fromComplexList cs mB = .ok B) (hr : comp.Ready) (hc : comp ∈ cs) {d : Nat}
    (hd : B.dimension < d) : (comp.view.upTo mB).X d = [] := by
  simp only [View.upTo]
  split
  · have := batch_dim_ge h hc
    exact view_X_none (absent_of_gt hr.valid (by omega))
  · rfl

theorem final_nil {v : View R} {jump : Option (List R → R)} {vs : List (View R)} {d : Nat}
    (h : v.X d = []) : v.final jump vs d = [] := by
  unfold View.final; rw [h]; rfl

/-- After the layers, the readout of a batch is the list of the readouts of its complexes. -/
theorem readoutPart_ok {Lv : Type} {net : SparseNet R Lv} (hn : net.Fits)
    {front rest : List (Complex R L)} {last B data : Complex R L} {mB : Nat}
    (hB : fromComplexList (front ++ last :: rest) mB = .ok B)
    (hr : ∀ comp ∈ front ++ last :: rest, comp.Ready)
    (hlast : 0 < last.cellsIn 0) (hrest : ∀ c ∈ rest, ∀ d, c.cellsIn d = 0)
    (hdata : ∀ d, data.attr d Cochain.batch = B.attr d Cochain.batch)
    (X : Complex R L → Nat → List R)
    (hX : ∀ c ∈ front ++ last :: rest, ∀ d, d < min net.maxDim B.dimension + 1 →
      (X c d).length = c.cellsIn d)
    (hX0 : ∀ c ∈ front ++ [last], ∀ d, B.dimension < d → X c d = [])
    (outs : List (List (List R)))
    (hfin : finalRows net.jump outs = .ok ((List.range (min net.maxDim B.dimension + 1)).map
      fun d => (front ++ last :: rest).flatMap fun c => X c d)) :
    net.readoutPart 𝕜 data outs = .ok ((front ++ [last]).map fun c =>
      net.lin2 (poolOf 𝕜 net.finalReadout (net.dims.map fun d =>
        net.act ((net.lin1s[d]?.getD id) (poolOf 𝕜 net.readout
          (if d ≤ min net.maxDim B.dimension then X c d else [])))))) := by
  have hdims : ∀ d ∈ net.dims, d ≤ net.maxDim := by
    intro d hd
    unfold SparseNet.dims at hd
    split at hd
    · have := (List.mem_filter.mp hd).2
      simpa using this
    · have := List.mem_range.mp hd; omega
  obtain ⟨pool, hpool, hagg⟩ := getPoolingFn_ok (𝕜 := 𝕜) (R := R) hn.readout
  unfold SparseNet.readoutPart
  rw [hfin, ok_bind, hpool, ok_bind]
  have hfm : ((List.range (min net.maxDim B.dimension + 1)).map
      fun d => (front ++ last :: rest).flatMap fun c => X c d) =
      ((List.range (min net.maxDim B.dimension + 1)).map
      fun d => (front ++ last :: rest).flatMap fun c =>
        if d ≤ min net.maxDim B.dimension then X c d else []) := by
    apply List.map_congr_left
    intro d hd
    have := List.mem_range.mp hd
    simp only [if_pos (show d ≤ min net.maxDim B.dimension by omega)]
  rw [hfm, poolComplex_ok (front := front) (last := last) (rest := rest)
    (X := fun c d => if d ≤ min net.maxDim B.dimension then X c d else [])]
  · rw [ok_bind]
    have hsel : mapE (listGet ((List.range (net.maxDim + 1)).map fun d => (front ++ [last]).map
          fun c => pool.agg 𝕜 (if d ≤ min net.maxDim B.dimension then X c d else []))) net.dims =
        .ok (net.dims.map fun d => (front ++ [last]).map fun c =>
          pool.agg 𝕜 (if d ≤ min net.maxDim B.dimension then X c d else [])) := by
      apply mapE_ok
      intro d hd
      unfold listGet
      rw [List.getElem?_map, List.getElem?_range (by have := hdims d hd; omega)]
      rfl
    rw [hsel, ok_bind]
    have hzip : (net.dims.map fun d => (front ++ [last]).map fun c =>
          pool.agg 𝕜 (if d ≤ min net.maxDim B.dimension then X c d else [])).zip net.dims =
        net.dims.map fun d => ((front ++ [last]).map (fun c =>
          pool.agg 𝕜 (if d ≤ min net.maxDim B.dimension then X c d else [])), d) := by
      generalize net.dims = l
      induction l with
      | nil => rfl
      | cons d l ih => rw [List.map_cons, List.zip_cons_cons, ih, List.map_cons]
    rw [hzip, mapE_map, mapE_ok (g := fun d => (front ++ [last]).map fun c =>
      net.act ((net.lin1s[d]?.getD id)
        (pool.agg 𝕜 (if d ≤ min net.maxDim B.dimension then X c d else []))))]
    · rw [ok_bind, stackReduce_ok hn.dims hn.final, ok_bind]
      simp only [pure_eq_ok, ok_inj, List.map_map]
      apply List.map_congr_left
      intro c _
      simp only [Function.comp, hagg]
    · intro d hd
      have hlt : d < net.lin1s.length := by rw [hn.lin1s]; have := hdims d hd; omega
      simp only [listGet, List.getElem?_eq_getElem hlt, ok_bind, pure_eq_ok, ok_inj, List.map_map,
        Option.getD_some]
      rfl
  · intro d hd
    rw [hdata, batch_vec hB hr (by omega)]
  · exact hlast
  · intro c hc d _; exact hrest c hc d
  · omega
  · omega
  · intro c hc d hd
    rw [if_pos (by omega)]
    exact hX c hc d hd
  · intro c _ d hd
    rw [if_neg (by omega)]

end

end Verif
