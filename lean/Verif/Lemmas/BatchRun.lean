import Verif.Lemmas.Relabel

/-!
# Layers on renumbered complexes and on batches
-/

namespace Verif

variable {R L : Type}

theorem eq_moveRows {σ : Equiv.Perm Nat} {rows rows' : List R}
    (hσ : ∀ c, σ c < rows.length ↔ c < rows.length) (hl : rows'.length = rows.length)
    (h : ∀ c, c < rows.length → rows'[σ c]? = rows[c]?) : rows' = moveRows σ rows := by
  apply List.ext_getElem?
  intro k
  by_cases hk : k < rows.length
  · have hs := (symm_lt_iff hσ k).mpr hk
    have := h _ hs
    rw [Equiv.apply_symm_apply] at this
    rw [this, ← moveRows_get hσ hs, Equiv.apply_symm_apply]
  · rw [List.getElem?_eq_none (by omega), List.getElem?_eq_none (by rw [moveRows_length hσ]; omega)]

/-- A list that has the blocks of a `flatMap` at the right places is the `flatMap`. -/
theorem eq_flatMap_of_blocks {C : Type} {cs : List C} {n : C → Nat} {f : C → List R} {l : List R}
    (hf : ∀ c ∈ cs, (f c).length = n c) (hl : l.length = (cs.map n).sum)
    (h : ∀ i c, cs[i]? = some c → ∀ k, k < n c → l[k + before n cs i]? = (f c)[k]?) :
    l = cs.flatMap f := by
  induction cs generalizing l with
  | nil => simpa using hl
  | cons c cs ih =>
    rw [List.flatMap_cons, ← List.take_append_drop (n c) l]
    have hlc : n c + (cs.map n).sum = l.length := by simpa using hl.symm
    congr 1
    · apply List.ext_getElem?
      intro k
      by_cases hk : k < n c
      · rw [List.getElem?_take_of_lt hk]
        have := h 0 c rfl k hk
        simpa [before] using this
      · rw [List.getElem?_eq_none (by simp; omega), List.getElem?_eq_none (by rw [hf c (by simp)]; omega)]
    · apply ih
      · intro c' hc'; exact hf c' (by simp [hc'])
      · simp; omega
      · intro i c' hc' k hk
        have := h (i + 1) c' (by simpa using hc') k hk
        rw [List.getElem?_drop, ← this]
        congr 1
        simp [before]; omega

section
variable [AddCommMonoid R]

/-- Up to the dimension of the complex nothing is cut off. -/
theorem upTo_of_dim {comp : Complex R L} (h : comp.Ready) {m : Nat} (hm : comp.dimension ≤ m) :
    comp.view.upTo m = comp.view := by
  have hX : ∀ d, ¬ d ≤ m → comp.cochains[d]? = none := fun d hd => absent_of_gt h.valid (by omega)
  unfold View.upTo
  have e1 : (fun d => if d ≤ m then comp.view.X d else []) = comp.view.X := by
    funext d
    split
    · rfl
    · rename_i hd
      exact (view_X_none (hX d hd)).symm
  have e2 : (fun d => if d + 1 ≤ m then comp.view.up d else []) = comp.view.up := by
    funext d
    split
    · rfl
    · rename_i hd
      show [] = if (comp.cochains[d + 1]?).isSome then _ else _
      rw [hX _ hd]; rfl
  have e3 : (fun d => if d ≤ m then comp.view.down d else []) = comp.view.down := by
    funext d
    split
    · rfl
    · rename_i hd
      rw [valid_down h.valid, attr_none (hX d hd)]; rfl
  have e4 : (fun d => if d ≤ m then comp.view.bnd d else []) = comp.view.bnd := by
    funext d
    split
    · rfl
    · rename_i hd
      rw [valid_bnd h.valid, attr_none (hX d hd)]; rfl
  rw [e1, e2, e3, e4]

/-- A renumbering of the complex renumbers the rows of the layer. -/
theorem relabel_layer {comp : Complex R L} (h : comp.Ready) {σ : Nat → Equiv.Perm Nat}
    (hσ : comp.Permutes σ) (rules : Nat → Rule R) (m : Nat) (top : Bool) (d : Nat) :
    ((comp.relabel σ).view.layer rules m top).X d =
      moveRows (σ d) ((comp.view.layer rules m top).X d) := by
  have hr := h.relabels hσ
  have hl := (hr.localIso (ready_inRange h)).layer (ready_inRange h) rules m top
  apply eq_moveRows
  · intro c
    rw [layer_X_length, ready_X_length h]
    exact hσ d c
  · rw [layer_X_length, layer_X_length, hr.size]
  · intro c hc
    exact hl.feat d c hc

/-- The rows of a layer of a batch. -/
theorem batch_layer {cs : List (Complex R L)} {m : Nat} {B : Complex R L}
    (h : fromComplexList cs m = .ok B) (hr : ∀ comp ∈ cs, comp.Ready) (rules : Nat → Rule R)
    (m' : Nat) (top : Bool) {d : Nat} (hd : d ≤ m) :
    (B.view.layer rules m' top).X d =
      cs.flatMap fun c => ((c.view.upTo m).layer rules m' top).X d := by
  have hlen : ∀ c ∈ cs, (((c.view.upTo m).layer rules m' top).X d).length = c.cellsIn d := by
    intro c hc
    rw [layer_X_length]
    simp only [View.upTo, if_pos hd]
    exact ready_X_length (hr c hc) d
  refine eq_flatMap_of_blocks (n := Complex.cellsIn d) hlen ?_ ?_
  · rw [layer_X_length, batch_X_length h hr hd]
  · intro i c hi k hk
    have hc := List.mem_of_getElem? hi
    have := ((batch_localIso h hr hi).layer (upTo_inRange (ready_inRange (hr c hc)) m) rules m' top).feat
      d k (by rw [hlen c hc]; exact hk)
    exact this

variable {Lv : Type} {forward : Lv → MPParams R → Py (List R)} {rule : Lv → Rule R}
  {needs : Lv → Prop} {down : Bool}

/-- Convolutions commute with renumbering. -/
theorem conv_relabel (hr : Realises forward rule needs down) {m : Nat} {top : Bool}
    {levels : List Lv} (hl : FitLevels needs m top levels) {comp : Complex R L} (h : comp.Ready)
    {σ : Nat → Equiv.Perm Nat} (hσ : comp.Permutes σ) :
    ∃ out, (comp.getAllCochainParams m top down >>= convForward forward levels) = .ok out ∧
      ((comp.relabel σ).getAllCochainParams m top down >>= convForward forward levels) =
        .ok (out.mapIdx fun d => moveRows (σ d)) := by
  refine ⟨_, h.runs.conv hr hl, ?_⟩
  have := (h.relabel hσ).runs.conv hr hl
  refine this.trans ?_
  rw [ok_inj]
  apply List.ext_getElem?
  intro d
  rw [List.getElem?_mapIdx, List.getElem?_map, List.getElem?_map]
  show Option.map _ (List.range (min m comp.dimension + 1))[d]? = _
  by_cases hd : d < min m comp.dimension + 1
  · rw [List.getElem?_range hd]
    simp [relabel_layer h hσ]
  · rw [List.getElem?_eq_none (by rw [List.length_range]; omega)]; rfl

/-- Convolutions commute with batching. -/
theorem conv_batch (hr : Realises forward rule needs down) {m : Nat} {top : Bool}
    {levels : List Lv} (hl : FitLevels needs m top levels) {cs : List (Complex R L)}
    (h : ∀ comp ∈ cs, comp.Ready) {mB : Nat} (hm : ∀ comp ∈ cs, comp.dimension ≤ mB)
    {B : Complex R L} (hB : fromComplexList cs mB = .ok B) :
    ∃ out outs, (B.getAllCochainParams m top down >>= convForward forward levels) = .ok out ∧
      mapE (fun comp => comp.getAllCochainParams m top down >>= convForward forward levels) cs =
        .ok outs ∧
      out.length = min m B.dimension + 1 ∧
      (∀ o ∈ outs, o.length ≤ out.length) ∧
      ∀ (d : Nat) (rows : List R), out[d]? = some rows → rows = outs.flatMap fun o => (o[d]?).getD [] := by
  refine ⟨_, _, (batch_runs hB h).conv hr hl,
    mapE_ok (g := fun comp : Complex R L => (List.range (min m comp.dimension + 1)).map
      (comp.view.layer (rulesOf rule levels) m top).X)
      (fun comp hc => (h comp hc).runs.conv hr hl), by simp, ?_, ?_⟩
  · intro o ho
    obtain ⟨comp, hc, rfl⟩ := List.mem_map.mp ho
    have h1 := batch_dim_ge hB hc
    have := hm comp hc
    simp; omega
  · intro d rows hrows
    rw [List.getElem?_map] at hrows
    by_cases hd : d < min m B.dimension + 1
    · rw [List.getElem?_range hd] at hrows
      have hrows : (B.view.layer (rulesOf rule levels) m top).X d = rows := by simpa using hrows
      have hdm : d ≤ mB := by have := (batch_dim_le hB).1; omega
      rw [← hrows, batch_layer hB h _ _ _ hdm, List.flatMap_map]
      apply List.flatMap_congr
      intro comp hc
      rw [upTo_of_dim (h comp hc) (hm comp hc), List.getElem?_map]
      by_cases hdc : d < min m comp.dimension + 1
      · rw [List.getElem?_range hdc]; rfl
      · rw [List.getElem?_eq_none (by rw [List.length_range]; omega)]
        show _ = []
        apply List.eq_nil_of_length_eq_zero
        rw [layer_X_length, view_X_none (absent_of_gt (h comp hc).valid (by omega))]; rfl
    · rw [List.getElem?_eq_none (by rw [List.length_range]; omega)] at hrows
      simp at hrows

end

end Verif
