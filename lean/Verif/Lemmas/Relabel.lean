import Verif.Spec.Relabel
import Verif.Lemmas.BatchView

/-!
# Renumbering cells
-/

namespace Verif

variable {R L : Type}

theorem filterMap_total_get {A B : Type} {f : A → Option B} {l : List A}
    (h : ∀ a ∈ l, (f a).isSome) (k : Nat) : (l.filterMap f)[k]? = (l[k]?).bind f := by
  induction l generalizing k with
  | nil => simp
  | cons a l ih =>
    obtain ⟨b, hb⟩ := Option.isSome_iff_exists.mp (h a (by simp))
    rw [List.filterMap_cons_some hb]
    cases k with
    | zero => simp [hb]
    | succ k => simpa using ih (fun a ha => h a (by simp [ha])) k

theorem symm_lt_iff {σ : Equiv.Perm Nat} {n : Nat} (h : ∀ c, σ c < n ↔ c < n) (k : Nat) :
    σ.symm k < n ↔ k < n := by
  have := h (σ.symm k)
  rw [Equiv.apply_symm_apply] at this
  exact this.symm

theorem moveRows_get {σ : Equiv.Perm Nat} {rows : List R} (h : ∀ c, σ c < rows.length ↔ c < rows.length)
    {c : Nat} (hc : c < rows.length) : (moveRows σ rows)[σ c]? = rows[c]? := by
  unfold moveRows
  rw [filterMap_total_get]
  · rw [List.getElem?_range ((h c).mpr hc)]
    simp
  · intro k hk
    have := (symm_lt_iff h k).mpr (List.mem_range.mp hk)
    simp [List.getElem?_eq_getElem this]

theorem moveRows_length {σ : Equiv.Perm Nat} {rows : List R}
    (h : ∀ c, σ c < rows.length ↔ c < rows.length) : (moveRows σ rows).length = rows.length := by
  unfold moveRows
  rw [List.length_filterMap_eq_countP, List.countP_eq_length.mpr, List.length_range]
  intro k hk
  have := (symm_lt_iff h k).mpr (List.mem_range.mp hk)
  simp [List.getElem?_eq_getElem this]

/-- A renumbering changes nothing around a cell. -/
theorem Relabels.localIso {v w : View R} {φ : Nat → Nat → Nat} (h : Relabels v w φ)
    (hv : v.InRange) : LocalIso v w φ where
  feat := h.feat
  up := by
    intro d c hc
    refine ((h.up d).filter _).trans ?_
    rw [List.filter_map]
    refine List.Perm.of_eq ?_
    congr 1
    apply List.filter_congr
    intro p hp
    have := (hv.up d p hp).2.1
    simp only [Function.comp, beq_eq_beq]
    exact ⟨h.inj d _ _ this hc, fun e => by rw [e]⟩
  down := by
    intro d c hc
    refine ((h.down d).filter _).trans ?_
    rw [List.filter_map]
    refine List.Perm.of_eq ?_
    congr 1
    apply List.filter_congr
    intro p hp
    have := (hv.down d p hp).2.1
    simp only [Function.comp, beq_eq_beq]
    exact ⟨h.inj d _ _ this hc, fun e => by rw [e]⟩
  bnd := by
    intro d c hc
    refine ((h.bnd d).filter _).trans ?_
    rw [List.filter_map]
    refine List.Perm.of_eq ?_
    congr 1
    apply List.filter_congr
    intro p hp
    have := (hv.bnd d p hp).2
    simp only [Function.comp, beq_eq_beq]
    exact ⟨h.inj d _ _ this hc, fun e => by rw [e]⟩

/-- The renumbered cochain. -/
def relabelCochain (comp : Complex R L) (σ : Nat → Equiv.Perm Nat) (d : Nat) (c : Cochain R L) :
    Cochain R L :=
  { c with
    x := c.x.map (moveRows (σ d))
    upperIndex := c.upperIndex.map (·.map fun p => (σ d p.1, σ d p.2))
    sharedCoboundaries := c.sharedCoboundaries.map (·.map (σ (d + 1)))
    lowerIndex := c.lowerIndex.map (·.map fun p => (σ d p.1, σ d p.2))
    sharedBoundaries := c.sharedBoundaries.map (·.map (σ (d - 1)))
    boundaryIndex := c.boundaryIndex.map (·.map fun p => (σ (d - 1) p.1, σ d p.2))
    numCellsUpAttr := if (comp.cochains[d + 1]?).isSome then some (some (comp.cellsIn (d + 1)))
      else c.numCellsUpAttr
    numCellsDownAttr := if d = 0 then c.numCellsDownAttr
      else some (some (comp.cellsIn (d - 1))) }

theorem relabel_get (comp : Complex R L) (σ : Nat → Equiv.Perm Nat) (d : Nat) :
    (comp.relabel σ).cochains[d]? = (comp.cochains[d]?).map (relabelCochain comp σ d) := by
  simp only [Complex.relabel, List.getElem?_mapIdx]
  rfl

theorem relabel_attr {A : Type} (comp : Complex R L) (σ : Nat → Equiv.Perm Nat) (d : Nat)
    (get : Cochain R L → Option A) :
    (comp.relabel σ).attr d get = comp.attr d (fun c => get (relabelCochain comp σ d c)) := by
  unfold Complex.attr
  rw [relabel_get]
  cases comp.cochains[d]? <;> rfl

theorem attr_map_getD {A B : Type} (comp : Complex R L) (d : Nat)
    (get : Cochain R L → Option (List A)) (f : A → B) :
    (comp.attr d (fun c => (get c).map (·.map f))).getD [] = ((comp.attr d get).getD []).map f := by
  unfold Complex.attr
  cases comp.cochains[d]? with
  | none => rfl
  | some c => cases h : get c <;> simp [h]

theorem zip_map_pair {A B C D : Type} (f : A → C) (g : B → D) (l : List A) (l' : List B) :
    (l.map f).zip (l'.map g) = (l.zip l').map fun p => (f p.1, g p.2) := by
  rw [List.zip_map]; rfl

/-- Facts on one cochain of a ready complex. -/
theorem Complex.Ready.cochain {comp : Complex R L} (h : comp.Ready) {d : Nat} {c : Cochain R L}
    (hc : comp.cochains[d]? = some c) : ∃ x, c.x = some x ∧ x.length = comp.cellsIn d ∧
      c.numCells = .ok (some (comp.cellsIn d)) := by
  have hX := h.runs.X_eq hc
  rw [ready_X_length h] at hX
  exact ⟨_, hX.1, ready_X_length h d, hX.2⟩

theorem relabel_numCells {comp : Complex R L} (h : comp.Ready) {σ : Nat → Equiv.Perm Nat}
    (hσ : comp.Permutes σ) {d : Nat} {c : Cochain R L} (hc : comp.cochains[d]? = some c) :
    (relabelCochain comp σ d c).numCells = .ok (some (comp.cellsIn d)) := by
  obtain ⟨x, hx, hl, hn⟩ := h.cochain hc
  have hlen : (moveRows (σ d) x).length = comp.cellsIn d := by
    rw [moveRows_length, hl]
    rw [hl]; exact hσ d
  unfold Cochain.numCells at hn ⊢
  cases ha : c.numCellsAttr with
  | some n =>
    rw [ha] at hn
    simp only [relabelCochain, ha]
    exact hn
  | none => simp only [relabelCochain, ha, hx, Option.map_some, hlen]

theorem relabel_cellsIn {comp : Complex R L} (h : comp.Ready) {σ : Nat → Equiv.Perm Nat}
    (hσ : comp.Permutes σ) (d : Nat) : (comp.relabel σ).cellsIn d = comp.cellsIn d := by
  unfold Complex.cellsIn
  rw [relabel_get]
  cases hc : comp.cochains[d]? with
  | none => rfl
  | some c =>
    have h1 := count_of (relabel_numCells h hσ hc)
    obtain ⟨_, _, _, hn⟩ := h.cochain hc
    have h2 := count_of hn
    simp [h1, h2]

theorem relabel_cellsBelow {comp : Complex R L} (h : comp.Ready) {σ : Nat → Equiv.Perm Nat}
    (hσ : comp.Permutes σ) (d : Nat) : (comp.relabel σ).cellsBelow d = comp.cellsBelow d := by
  cases d with
  | zero => rfl
  | succ d => exact relabel_cellsIn h hσ d

theorem mem_map_getD {A B : Type} {o : Option (List A)} {f : A → B} {b : B}
    (h : b ∈ (o.map (·.map f)).getD []) : ∃ a ∈ o.getD [], f a = b := by
  cases o with
  | none => simp at h
  | some l => simpa using h

theorem length_map_getD {A B : Type} {o : Option (List A)} {f : A → B} :
    ((o.map (·.map f)).getD []).length = (o.getD []).length := by
  cases o <;> simp

/-- A renumbered complex is again ready. -/
theorem Complex.Ready.relabel {comp : Complex R L} (h : comp.Ready) {σ : Nat → Equiv.Perm Nat}
    (hσ : comp.Permutes σ) : (comp.relabel σ).Ready := by
  have hlen : (comp.relabel σ).cochains.length = comp.cochains.length := by
    simp [Complex.relabel]
  have hsplit : ∀ {d : Nat} {c : Cochain R L}, (comp.relabel σ).cochains[d]? = some c →
      ∃ c0, comp.cochains[d]? = some c0 ∧ c = relabelCochain comp σ d c0 := by
    intro d c hc
    rw [relabel_get] at hc
    cases hc0 : comp.cochains[d]? with
    | none => rw [hc0] at hc; simp at hc
    | some c0 => rw [hc0] at hc; exact ⟨c0, rfl, by simpa using hc.symm⟩
  refine ⟨⟨⟨?_, ?_, ?_, ?_⟩, ?_, ?_, ?_⟩, ?_, ?_⟩
  · rw [hlen]; exact h.valid.len
  · intro d c hc
    obtain ⟨c0, hc0, rfl⟩ := hsplit hc
    exact h.valid.dim d c0 hc0
  · intro d c c' hc hc'
    obtain ⟨c0, hc0, rfl⟩ := hsplit hc
    obtain ⟨c1, hc1, rfl⟩ := hsplit hc'
    rw [relabel_numCells h hσ hc1]
    simp [Cochain.numCellsUp, relabelCochain, hc1]
  · intro d c c' hc hc'
    obtain ⟨c0, hc0, rfl⟩ := hsplit hc
    obtain ⟨c1, hc1, rfl⟩ := hsplit hc'
    rw [relabel_numCells h hσ hc0]
    have hd := h.valid.dim _ c1 hc1
    simp [Cochain.numCellsDown, relabelCochain, hd]
  · intro c hc
    obtain ⟨d, hd⟩ := List.mem_iff_getElem?.mp hc
    obtain ⟨c0, hc0, rfl⟩ := hsplit hd
    exact ⟨_, relabel_numCells h hσ hc0⟩
  · intro c hc
    obtain ⟨c0, hc0, rfl⟩ := hsplit hc
    have hc0' : comp.cochains[comp.dimension]? = some c0 := hc0
    obtain ⟨n, hn, hn0⟩ := h.valid.top c0 hc0'
    refine ⟨n, ?_, hn0⟩
    have hnone : comp.cochains[comp.dimension + 1]? = none := by
      rw [List.getElem?_eq_none_iff, h.valid.len]
    have hs := (h.valid.valid _ c0 hc0').shared
    have hz : comp.cellsIn (comp.dimension + 1) = 0 := by
      unfold Complex.cellsIn; rw [hnone]; rfl
    rw [hz] at hs
    unfold Cochain.numCellsUp at hn ⊢
    cases ha : c0.numCellsUpAttr with
    | some k =>
      rw [ha] at hn
      simp only [relabelCochain, Complex.relabel, hnone, Option.isSome_none, Bool.false_eq_true, if_false, ha]
      exact hn
    | none =>
      rw [ha] at hn
      have hb := (h.valid.valid _ c0 hc0').upperBoth
      cases hsc : c0.sharedCoboundaries with
      | none =>
        rw [hsc] at hn hb
        have hb : c0.upperIndex = none := by simpa using hb
        rw [hb] at hn
        simp only [relabelCochain, Complex.relabel, hnone, Option.isSome_none, Bool.false_eq_true, if_false, ha, hsc,
          hb, Option.map_none]
        exact hn
      | some s =>
        rw [hsc] at hn hs
        cases s with
        | nil =>
          rw [hsc] at hb
          have hb : c0.upperIndex.isSome = true := by simpa using hb
          rw [hb] at hn
          simp [Cochain.maxPlusOne, pyAssert, ok_bind, error_bind, Functor.map, Except.map] at hn
        | cons a s => exact absurd (hs a (by simp)) (by omega)
  · intro d c hc
    obtain ⟨c0, hc0, rfl⟩ := hsplit hc
    have hv := h.valid.valid d c0 hc0
    rw [relabel_cellsIn h hσ, relabel_cellsIn h hσ, relabel_cellsBelow h hσ]
    have hbelow : ∀ a, a < comp.cellsBelow d → σ (d - 1) a < comp.cellsBelow d := by
      intro a ha
      cases d with
      | zero => exact absurd ha (by simp [Complex.cellsBelow])
      | succ d => exact (hσ d a).mpr ha
    refine ⟨hv.plain, ?_, ?_, ?_, ?_, ?_, ?_, ?_, ?_, ?_, ?_⟩
    · intro x hx
      obtain ⟨x0, hx0, hl, _⟩ := h.cochain hc0
      simp only [relabelCochain, hx0, Option.map_some, Option.some.injEq] at hx
      rw [← hx, moveRows_length, hl]
      rw [hl]; exact hσ d
    · intro p hp
      obtain ⟨q, hq, rfl⟩ := mem_map_getD hp
      have := hv.upper q hq
      exact ⟨(hσ d _).mpr this.1, (hσ d _).mpr this.2⟩
    · exact (length_map_getD.trans hv.upperShared).trans length_map_getD.symm
    · simpa [relabelCochain] using hv.upperBoth
    · intro s hs
      obtain ⟨q, hq, rfl⟩ := mem_map_getD hs
      exact (hσ _ _).mpr (hv.shared q hq)
    · intro p hp
      obtain ⟨q, hq, rfl⟩ := mem_map_getD hp
      have := hv.lower q hq
      exact ⟨(hσ d _).mpr this.1, (hσ d _).mpr this.2⟩
    · exact (length_map_getD.trans hv.lowerShared).trans length_map_getD.symm
    · simpa [relabelCochain] using hv.lowerBoth
    · intro s hs
      obtain ⟨q, hq, rfl⟩ := mem_map_getD hs
      exact hbelow _ (hv.sharedDown q hq)
    · intro p hp
      obtain ⟨q, hq, rfl⟩ := mem_map_getD hp
      have := hv.boundary q hq
      exact ⟨hbelow _ this.1, (hσ d _).mpr this.2⟩
  · intro c hc
    obtain ⟨d, hd⟩ := List.mem_iff_getElem?.mp hc
    obtain ⟨c0, hc0, rfl⟩ := hsplit hd
    have := h.featured c0 (List.mem_of_getElem? hc0)
    simpa [relabelCochain] using this
  · rw [relabel_attr]
    have := h.vertices
    unfold Complex.attr at this ⊢
    cases hc : comp.cochains[0]? with
    | none => rfl
    | some c =>
      rw [hc] at this
      have : c.lowerIndex = none := this
      simp [relabelCochain, this]

/-- The renumbered complex is the renumbering of the view. -/
theorem Complex.Ready.relabels {comp : Complex R L} (h : comp.Ready) {σ : Nat → Equiv.Perm Nat}
    (hσ : comp.Permutes σ) :
    Relabels comp.view (comp.relabel σ).view (fun d c => σ d c) := by
  have hX : ∀ d, (comp.relabel σ).view.X d = moveRows (σ d) (comp.view.X d) := by
    intro d
    show ((comp.relabel σ).attr d Cochain.x).getD [] = moveRows (σ d) ((comp.attr d Cochain.x).getD [])
    rw [relabel_attr]
    unfold Complex.attr
    cases comp.cochains[d]? with
    | none => rfl
    | some c => cases hx : c.x <;> simp [relabelCochain, hx, moveRows]
  have hperm : ∀ d c, σ d c < (comp.view.X d).length ↔ c < (comp.view.X d).length := by
    intro d c
    rw [ready_X_length h]; exact hσ d c
  refine ⟨?_, ?_, ?_, ?_, ?_, ?_⟩
  · intro d
    rw [hX, moveRows_length (hperm d)]
  · intro d c e _ _ he
    exact (σ d).injective he
  · intro d c hc
    rw [hX, moveRows_get (hperm d) hc]
  · intro d
    refine List.Perm.of_eq ?_
    rw [valid_up (h.relabel hσ).valid, valid_up h.valid, relabel_attr, relabel_attr]
    have e1 := attr_map_getD comp d Cochain.upperIndex (fun p => (σ d p.1, σ d p.2))
    have e2 := attr_map_getD comp d Cochain.sharedCoboundaries (σ (d + 1))
    simp only [relabelCochain]
    rw [e1, e2, zip_map_pair]
  · intro d
    refine List.Perm.of_eq ?_
    rw [valid_down (h.relabel hσ).valid, valid_down h.valid, relabel_attr, relabel_attr]
    have e1 := attr_map_getD comp d Cochain.lowerIndex (fun p => (σ d p.1, σ d p.2))
    have e2 := attr_map_getD comp d Cochain.sharedBoundaries (σ (d - 1))
    simp only [relabelCochain]
    rw [e1, e2, zip_map_pair]
  · intro d
    refine List.Perm.of_eq ?_
    rw [valid_bnd (h.relabel hσ).valid, valid_bnd h.valid, relabel_attr]
    exact attr_map_getD comp d Cochain.boundaryIndex (fun p => (σ (d - 1) p.1, σ d p.2))

end Verif
