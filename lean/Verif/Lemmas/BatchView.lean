import Verif.Lemmas.Run
import Verif.Props.ComplexBatching

/-!
# The view of a batch
-/

namespace Verif

variable {R L : Type}

theorem ready_X_length {comp : Complex R L} (h : comp.Ready) (d : Nat) :
    (comp.view.X d).length = comp.cellsIn d := by
  have := featured_rows h.valid h.featured d
  rw [count_orEmpty, attr_orEmpty d comp Cochain.x (fun _ => rfl)] at this
  exact this

theorem ready_below_length {comp : Complex R L} (h : comp.Ready) (d : Nat) :
    (comp.view.below d).length = comp.cellsBelow d := by
  cases d with
  | zero => rfl
  | succ d => exact ready_X_length h d

theorem valid_up {comp : Complex R L} (h : comp.Valid) (d : Nat) :
    comp.view.up d = ((comp.attr d Cochain.upperIndex).getD []).zip
      ((comp.attr d Cochain.sharedCoboundaries).getD []) := by
  simp only [Complex.view]
  cases hu : comp.cochains[d + 1]? with
  | some c => rfl
  | none =>
    cases hc : comp.cochains[d]? with
    | none => rw [attr_none hc]; rfl
    | some c =>
      rw [attr_of hc, attr_of hc]
      have hs := (h.valid d c hc).shared
      have : comp.cellsIn (d + 1) = 0 := by unfold Complex.cellsIn; rw [hu]; rfl
      rw [this] at hs
      have : c.sharedCoboundaries.getD [] = [] := by
        rw [List.eq_nil_iff_forall_not_mem]
        intro s hs'
        exact absurd (hs s hs') (Nat.not_lt_zero _)
      rw [this]; simp

theorem valid_down {comp : Complex R L} (h : comp.Valid) (d : Nat) :
    comp.view.down d = ((comp.attr d Cochain.lowerIndex).getD []).zip
      ((comp.attr d Cochain.sharedBoundaries).getD []) := by
  cases d with
  | succ d => rfl
  | zero =>
    simp only [Complex.view]
    cases hc : comp.cochains[0]? with
    | none => rw [attr_none hc]; rfl
    | some c =>
      rw [attr_of hc, attr_of hc]
      have hs := (h.valid 0 c hc).sharedDown
      have : c.sharedBoundaries.getD [] = [] := by
        rw [List.eq_nil_iff_forall_not_mem]
        intro s hs'
        exact absurd (hs s hs') (Nat.not_lt_zero _)
      rw [this]; simp

theorem valid_bnd {comp : Complex R L} (h : comp.Valid) (d : Nat) :
    comp.view.bnd d = (comp.attr d Cochain.boundaryIndex).getD [] := by
  cases d with
  | succ d => rfl
  | zero =>
    simp only [Complex.view]
    cases hc : comp.cochains[0]? with
    | none => rw [attr_none hc]; rfl
    | some c =>
      rw [attr_of hc, eq_comm, List.eq_nil_iff_forall_not_mem]
      intro p hp
      exact absurd ((h.valid 0 c hc).boundary p hp).1 (Nat.not_lt_zero _)

theorem ready_inRange {comp : Complex R L} (h : comp.Ready) : comp.view.InRange := by
  constructor
  · intro d p hp
    rw [valid_up h.valid] at hp
    have hq := List.of_mem_zip (a := p.1) (b := p.2) hp
    obtain ⟨c, hc, h1⟩ := attr_mem hq.1
    obtain ⟨c', hc', h2⟩ := attr_mem hq.2
    rw [hc] at hc'; cases hc'
    have v := h.valid.valid d c hc
    rw [ready_X_length h, ready_X_length h]
    exact ⟨(v.upper _ h1).1, (v.upper _ h1).2, v.shared _ h2⟩
  · intro d p hp
    rw [valid_down h.valid] at hp
    have hq := List.of_mem_zip (a := p.1) (b := p.2) hp
    obtain ⟨c, hc, h1⟩ := attr_mem hq.1
    obtain ⟨c', hc', h2⟩ := attr_mem hq.2
    rw [hc] at hc'; cases hc'
    have v := h.valid.valid d c hc
    rw [ready_X_length h, ready_below_length h]
    exact ⟨(v.lower _ h1).1, (v.lower _ h1).2, v.sharedDown _ h2⟩
  · intro d p hp
    rw [valid_bnd h.valid] at hp
    obtain ⟨c, hc, h1⟩ := attr_mem hp
    have v := h.valid.valid d c hc
    rw [ready_X_length h, ready_below_length h]
    exact v.boundary _ h1

/-- A ready complex runs. -/
theorem Complex.Ready.runs {comp : Complex R L} (h : comp.Ready) : comp.Runs where
  len := h.valid.len
  feat := by
    intro d c hc
    obtain ⟨x, hx⟩ := Option.isSome_iff_exists.mp (h.featured c (List.mem_of_getElem? hc))
    obtain ⟨n, hn⟩ := h.valid.known c (List.mem_of_getElem? hc)
    refine ⟨x, hx, ?_⟩
    rw [(h.valid.valid d c hc).rows x hx, hn]
    simp [Complex.cellsIn, hc, Cochain.count, hn]
  upBoth := fun d c hc => (h.valid.valid d c hc).upperBoth
  upLen := fun d c hc => (h.valid.valid d c hc).upperShared
  downBoth := fun d c hc => (h.valid.valid d c hc).lowerBoth
  downLen := fun d c hc => (h.valid.valid d c hc).lowerShared
  vertices := h.vertices
  range := ready_inRange h

/-- Placement of the three kinds of columns of complex `i` in the batch. -/
def placeUp (cs : List (Complex R L)) (d i : Nat) (p : (Nat × Nat) × Nat) : (Nat × Nat) × Nat :=
  ((inBatch cs i d p.1.1, inBatch cs i d p.1.2), inBatch cs i (d + 1) p.2)

/-- Placement of lower columns. -/
def placeDown (cs : List (Complex R L)) (d i : Nat) (p : (Nat × Nat) × Nat) : (Nat × Nat) × Nat :=
  ((inBatch cs i d p.1.1, inBatch cs i d p.1.2), inBatch cs i (d - 1) p.2)

/-- Placement of incidence columns. -/
def placeBnd (cs : List (Complex R L)) (d i : Nat) (p : Nat × Nat) : Nat × Nat :=
  (inBatch cs i (d - 1) p.1, inBatch cs i d p.2)

theorem batch_dim_ge {cs : List (Complex R L)} {m : Nat} {B : Complex R L}
    (h : fromComplexList cs m = .ok B) {comp : Complex R L} (hc : comp ∈ cs) :
    min comp.dimension m ≤ B.dimension := by
  obtain ⟨k, hk, hd⟩ := (fromComplexList_inv h).dimension
  rw [List.max?_eq_some_iff] at hk
  have := hk.2 comp.dimension (List.mem_map_of_mem hc)
  omega

theorem batch_dim_le {cs : List (Complex R L)} {m : Nat} {B : Complex R L}
    (h : fromComplexList cs m = .ok B) :
    B.dimension ≤ m ∧ ∃ comp ∈ cs, B.dimension ≤ comp.dimension := by
  obtain ⟨k, hk, hd⟩ := (fromComplexList_inv h).dimension
  rw [List.max?_eq_some_iff] at hk
  obtain ⟨c, hc, he⟩ := List.mem_map.mp hk.1
  exact ⟨by omega, c, hc, by omega⟩

theorem absent_of_gt {comp : Complex R L} (h : comp.Valid) {d : Nat} (hd : comp.dimension < d) :
    comp.cochains[d]? = none := by
  rw [List.getElem?_eq_none_iff, h.len]; omega

theorem flatMap_nil_of {A B : Type} {l : List A} {f : A → List B} (h : ∀ a ∈ l, f a = []) :
    l.flatMap f = [] := List.flatMap_eq_nil_iff.mpr h

theorem mem_of_mem_zipIdx' {A : Type} {l : List A} {ci : A × Nat} (h : ci ∈ l.zipIdx) :
    l[ci.2]? = some ci.1 := List.mk_mem_zipIdx_iff_getElem?.mp h

theorem batch_X {cs : List (Complex R L)} {m : Nat} {B : Complex R L}
    (h : fromComplexList cs m = .ok B) (hr : ∀ comp ∈ cs, comp.Ready) {d : Nat} (hd : d ≤ m) :
    B.view.X d = cs.flatMap fun c => c.view.X d := by
  cases hb : B.cochains[d]? with
  | none =>
    rw [view_X_none hb, eq_comm]
    apply flatMap_nil_of
    intro c hc
    apply view_X_none
    apply absent_of_gt (hr c hc).valid
    have := batch_dim_ge h hc
    rw [List.getElem?_eq_none_iff, (fromComplexList_inv h).coherent.len] at hb
    omega
  | some b =>
    show (B.attr d Cochain.x).getD [] = _
    rw [attr_of hb, (C01_complex_batch_adjacency cs m B h d b hb).2.2.1, unionOf_getD]
    simp only [List.map_id']
    have : cs.flatMap (fun c => c.view.X d) =
        (cs.zipIdx.map Prod.fst).flatMap fun c => c.view.X d := by rw [List.zipIdx_map_fst]
    rw [this, List.flatMap_map]
    rfl

theorem batch_X_none {cs : List (Complex R L)} {m : Nat} {B : Complex R L}
    (h : fromComplexList cs m = .ok B) {d : Nat} (hd : m < d) : B.cochains[d]? = none := by
  rw [List.getElem?_eq_none_iff, (fromComplexList_inv h).coherent.len]
  have := (batch_dim_le h).1
  omega

theorem batch_up {cs : List (Complex R L)} {m : Nat} {B : Complex R L}
    (h : fromComplexList cs m = .ok B) (hr : ∀ comp ∈ cs, comp.Ready) {d : Nat} (hd : d + 1 ≤ m) :
    B.view.up d = cs.zipIdx.flatMap fun ci => (ci.1.view.up d).map (placeUp cs d ci.2) := by
  have hmem : ∀ {ci : Complex R L × Nat}, ci ∈ cs.zipIdx → ci.1 ∈ cs :=
    fun hci => List.mem_of_getElem? (mem_of_mem_zipIdx' hci)
  cases hb' : B.cochains[d + 1]? with
  | none =>
    simp only [Complex.view, hb']
    rw [if_neg (by simp), eq_comm]
    apply flatMap_nil_of
    intro ci hci
    have hc := hmem hci
    have hlt := batch_dim_ge h hc
    rw [List.getElem?_eq_none_iff, (fromComplexList_inv h).coherent.len] at hb'
    rw [absent_of_gt (hr _ hc).valid (by omega)]
    simp
  | some b' =>
    have hlt : d < B.cochains.length := by
      have := (List.getElem?_eq_some_iff.mp hb').1; omega
    have hb := List.getElem?_eq_getElem hlt
    generalize B.cochains[d] = b at hb
    have e1 := (C01_complex_batch_adjacency cs m B h d b hb).1
    have e2 := (C02_complex_batch_incidence cs m B h (fun c hc => (hr c hc).valid.toCoherent) d b
      hb).2.2 (fun c hc => (hr c hc).valid.topEmpty)
    simp only [Complex.view, hb']
    rw [if_pos (by simp), attr_of hb, attr_of hb, e1, e2, unionOf_getD, unionOf_getD,
      zip_flatMap_blocks]
    · apply List.flatMap_congr
      intro ci hci
      rw [List.zip_map]
      have := valid_up (hr _ (hmem hci)).valid d
      simp only [Complex.view] at this
      rw [this]
      rfl
    · intro ci hci
      have hv := (hr _ (hmem hci)).valid
      simp only [List.length_map]
      cases hc : ci.1.cochains[d]? with
      | none => rw [attr_none hc, attr_none hc]; rfl
      | some c => rw [attr_of hc, attr_of hc]; exact (hv.valid d c hc).upperShared.symm

theorem batch_down {cs : List (Complex R L)} {m : Nat} {B : Complex R L}
    (h : fromComplexList cs m = .ok B) (hr : ∀ comp ∈ cs, comp.Ready) {d : Nat} (hd : d ≤ m) :
    B.view.down d = cs.zipIdx.flatMap fun ci => (ci.1.view.down d).map (placeDown cs d ci.2) := by
  have hmem : ∀ {ci : Complex R L × Nat}, ci ∈ cs.zipIdx → ci.1 ∈ cs :=
    fun hci => List.mem_of_getElem? (mem_of_mem_zipIdx' hci)
  cases d with
  | zero =>
    rw [show B.view.down 0 = [] from rfl, eq_comm]
    exact flatMap_nil_of fun ci _ => rfl
  | succ d =>
    cases hb : B.cochains[d + 1]? with
    | none =>
      simp only [Complex.view]
      rw [attr_none hb, attr_none hb]
      simp only [Option.getD_none, List.zip_nil_left]
      rw [eq_comm]
      apply flatMap_nil_of
      intro ci hci
      have hc := hmem hci
      have hlt := batch_dim_ge h hc
      rw [List.getElem?_eq_none_iff, (fromComplexList_inv h).coherent.len] at hb
      rw [attr_none (absent_of_gt (hr _ hc).valid (by omega))]
      simp
    | some b =>
      have e1 := (C01_complex_batch_adjacency cs m B h (d + 1) b hb).2.1
      have e2 := (C02_complex_batch_incidence cs m B h (fun c hc => (hr c hc).valid.toCoherent) (d + 1)
        b hb).2.1
      simp only [Complex.view]
      rw [attr_of hb, attr_of hb, e1, e2, unionOf_getD, unionOf_getD, zip_flatMap_blocks]
      · apply List.flatMap_congr
        intro ci hci
        rw [List.zip_map]
        rfl
      · intro ci hci
        have hv := (hr _ (hmem hci)).valid
        simp only [List.length_map]
        cases hc : ci.1.cochains[d + 1]? with
        | none => rw [attr_none hc, attr_none hc]; rfl
        | some c => rw [attr_of hc, attr_of hc]; exact (hv.valid (d + 1) c hc).lowerShared.symm

theorem batch_bnd {cs : List (Complex R L)} {m : Nat} {B : Complex R L}
    (h : fromComplexList cs m = .ok B) (hr : ∀ comp ∈ cs, comp.Ready) {d : Nat} (hd : d ≤ m) :
    B.view.bnd d = cs.zipIdx.flatMap fun ci => (ci.1.view.bnd d).map (placeBnd cs d ci.2) := by
  have hmem : ∀ {ci : Complex R L × Nat}, ci ∈ cs.zipIdx → ci.1 ∈ cs :=
    fun hci => List.mem_of_getElem? (mem_of_mem_zipIdx' hci)
  cases d with
  | zero =>
    rw [show B.view.bnd 0 = [] from rfl, eq_comm]
    exact flatMap_nil_of fun ci _ => rfl
  | succ d =>
    cases hb : B.cochains[d + 1]? with
    | none =>
      simp only [Complex.view]
      rw [attr_none hb, Option.getD_none, eq_comm]
      apply flatMap_nil_of
      intro ci hci
      have hc := hmem hci
      have hlt := batch_dim_ge h hc
      rw [List.getElem?_eq_none_iff, (fromComplexList_inv h).coherent.len] at hb
      rw [attr_none (absent_of_gt (hr _ hc).valid (by omega))]
      rfl
    | some b =>
      have e1 := (C02_complex_batch_incidence cs m B h (fun c hc => (hr c hc).valid.toCoherent) (d + 1)
        b hb).1
      simp only [Complex.view]
      rw [attr_of hb, e1, unionOf_getD]
      rfl

theorem batch_X_length {cs : List (Complex R L)} {m : Nat} {B : Complex R L}
    (h : fromComplexList cs m = .ok B) (hr : ∀ comp ∈ cs, comp.Ready) {d : Nat} (hd : d ≤ m) :
    (B.view.X d).length = (cs.map (Complex.cellsIn d)).sum := by
  rw [batch_X h hr hd, List.length_flatMap]
  congr 1
  exact List.map_congr_left fun c hc => ready_X_length (hr c hc) d

theorem inBatch_lt {cs : List (Complex R L)} {i d c : Nat} {comp : Complex R L}
    (hi : cs[i]? = some comp) (hc : c < comp.cellsIn d) :
    inBatch cs i d c < (cs.map (Complex.cellsIn d)).sum := before_lt_total hi hc

theorem inBatch_inj {cs : List (Complex R L)} {i j d c e : Nat} {comp comp' : Complex R L}
    (hi : cs[i]? = some comp) (hc : c < comp.cellsIn d) (hj : cs[j]? = some comp')
    (he : e < comp'.cellsIn d) (h : inBatch cs i d c = inBatch cs j d e) : i = j ∧ c = e := by
  have hil : i < cs.length := (List.getElem?_eq_some_iff.mp hi).1
  have hjl : j < cs.length := (List.getElem?_eq_some_iff.mp hj).1
  unfold inBatch at h
  have h1 : inSeg (Complex.cellsIn d) cs i (c + before (Complex.cellsIn d) cs i) = true :=
    (inSeg_shift hi hc hil).mpr rfl
  rw [h] at h1
  have := (inSeg_shift hj he hil).mp h1
  subst this
  exact ⟨rfl, by omega⟩

theorem batch_inRange {cs : List (Complex R L)} {m : Nat} {B : Complex R L}
    (h : fromComplexList cs m = .ok B) (hr : ∀ comp ∈ cs, comp.Ready) : B.view.InRange := by
  have hmem : ∀ {ci : Complex R L × Nat}, ci ∈ cs.zipIdx → ci.1 ∈ cs :=
    fun hci => List.mem_of_getElem? (mem_of_mem_zipIdx' hci)
  constructor
  · intro d p hp
    by_cases hd : d + 1 ≤ m
    · rw [batch_up h hr hd] at hp
      simp only [List.mem_flatMap, List.mem_map] at hp
      obtain ⟨ci, hci, q, hq, rfl⟩ := hp
      have hrc := hr _ (hmem hci)
      obtain ⟨h1, h2, h3⟩ := (ready_inRange hrc).up d q hq
      rw [ready_X_length hrc] at h1 h2 h3
      have hi := mem_of_mem_zipIdx' hci
      rw [batch_X_length h hr (by omega), batch_X_length h hr (by omega)]
      exact ⟨inBatch_lt hi h1, inBatch_lt hi h2, inBatch_lt hi h3⟩
    · simp only [Complex.view, batch_X_none h (show m < d + 1 by omega)] at hp
      simp at hp
  · intro d p hp
    by_cases hd : d ≤ m
    · rw [batch_down h hr hd] at hp
      simp only [List.mem_flatMap, List.mem_map] at hp
      obtain ⟨ci, hci, q, hq, rfl⟩ := hp
      have hrc := hr _ (hmem hci)
      obtain ⟨h1, h2, h3⟩ := (ready_inRange hrc).down d q hq
      rw [ready_X_length hrc] at h1 h2
      have hi := mem_of_mem_zipIdx' hci
      rw [batch_X_length h hr (by omega)]
      refine ⟨inBatch_lt hi h1, inBatch_lt hi h2, ?_⟩
      cases d with
      | zero => simp [View.below] at h3
      | succ d =>
        simp only [View.below] at h3 ⊢
        rw [ready_X_length hrc] at h3
        rw [batch_X_length h hr (by omega)]
        exact inBatch_lt hi h3
    · cases d with
      | zero => omega
      | succ d =>
        simp only [Complex.view] at hp
        rw [attr_none (batch_X_none h (by omega))] at hp
        simp at hp
  · intro d p hp
    by_cases hd : d ≤ m
    · rw [batch_bnd h hr hd] at hp
      simp only [List.mem_flatMap, List.mem_map] at hp
      obtain ⟨ci, hci, q, hq, rfl⟩ := hp
      have hrc := hr _ (hmem hci)
      obtain ⟨h1, h2⟩ := (ready_inRange hrc).bnd d q hq
      rw [ready_X_length hrc] at h2
      have hi := mem_of_mem_zipIdx' hci
      rw [batch_X_length h hr (by omega)]
      refine ⟨?_, inBatch_lt hi h2⟩
      cases d with
      | zero => simp [View.below] at h1
      | succ d =>
        simp only [View.below] at h1 ⊢
        rw [ready_X_length hrc] at h1
        rw [batch_X_length h hr (by omega)]
        exact inBatch_lt hi h1
    · cases d with
      | zero => omega
      | succ d =>
        simp only [Complex.view] at hp
        rw [attr_none (batch_X_none h (by omega))] at hp
        simp at hp

theorem unionOf_isSome {C A A' : Type} {get : C → Option (List A)} {get' : C → Option (List A')}
    {place : Nat → A → A} {place' : Nat → A' → A'} {cs : List C}
    (h : ∀ c ∈ cs, (get c).isSome = (get' c).isSome) :
    (unionOf get place cs).isSome = (unionOf get' place' cs).isSome := by
  unfold unionOf
  have : (∃ c ∈ cs, (get c).isSome) ↔ (∃ c ∈ cs, (get' c).isSome) := by
    constructor
    · rintro ⟨c, hc, hs⟩; exact ⟨c, hc, by rwa [← h c hc]⟩
    · rintro ⟨c, hc, hs⟩; exact ⟨c, hc, by rwa [h c hc]⟩
  by_cases hx : ∃ c ∈ cs, (get c).isSome
  · rw [if_pos hx, if_pos (this.mp hx)]; rfl
  · rw [if_neg hx, if_neg (fun h => hx (this.mpr h))]; rfl

/-- A batch of ready complexes runs. -/
theorem batch_runs {cs : List (Complex R L)} {m : Nat} {B : Complex R L}
    (h : fromComplexList cs m = .ok B) (hr : ∀ comp ∈ cs, comp.Ready) : B.Runs where
  len := (fromComplexList_inv h).coherent.len
  feat := by
    intro d b hb
    have hdm : d ≤ B.dimension := by
      have := (List.getElem?_eq_some_iff.mp hb).1
      rw [(fromComplexList_inv h).coherent.len] at this; omega
    obtain ⟨b0, u, l, h0, rfl⟩ := (fromComplexList_inv h).cochain d b hb
    obtain ⟨hle, top, htop, htopd⟩ := batch_dim_le h
    have hlt : d < top.cochains.length := by rw [(hr top htop).valid.len]; omega
    have htc := List.getElem?_eq_getElem hlt
    have hx : ∃ c ∈ cs.map (orEmpty d), c.x.isSome := by
      refine ⟨orEmpty d top, List.mem_map_of_mem htop, ?_⟩
      rw [orEmpty_of_some htc]
      exact (hr top htop).featured _ (List.mem_of_getElem? htc)
    have hn := batch_count h0 hx (by
      intro c hc
      obtain ⟨comp, hcomp, rfl⟩ := List.mem_map.mp hc
      exact featured_rows (hr comp hcomp).valid (hr comp hcomp).featured d)
    have hbx : b0.x.isSome := by
      rw [(fromCochainList_inv h0).x, unionOf_some_of hx]; rfl
    obtain ⟨x, hx'⟩ := Option.isSome_iff_exists.mp hbx
    refine ⟨x, hx', ?_⟩
    have : b0.numCells = .ok (some x.length) := by
      unfold Cochain.numCells
      rw [(fromCochainList_inv h0).explicit.1, hx']
    exact this
  upBoth := by
    intro d b hb
    rw [(C01_complex_batch_adjacency cs m B h d b hb).1,
      (C02_complex_batch_incidence cs m B h (fun c hc => (hr c hc).valid.toCoherent) d b hb).2.2
        (fun c hc => (hr c hc).valid.topEmpty)]
    apply unionOf_isSome
    intro c hc
    cases hcd : c.cochains[d]? with
    | none => rw [attr_none hcd, attr_none hcd]; rfl
    | some c' => rw [attr_of hcd, attr_of hcd]; exact ((hr c hc).valid.valid d c' hcd).upperBoth
  upLen := by
    intro d b hb
    exact (C04_shared_within_one_complex cs m B h (fun c hc => (hr c hc).valid) d b hb).1
  downBoth := by
    intro d b hb
    rw [(C01_complex_batch_adjacency cs m B h d b hb).2.1,
      (C02_complex_batch_incidence cs m B h (fun c hc => (hr c hc).valid.toCoherent) d b hb).2.1]
    apply unionOf_isSome
    intro c hc
    cases hcd : c.cochains[d]? with
    | none => rw [attr_none hcd, attr_none hcd]; rfl
    | some c' => rw [attr_of hcd, attr_of hcd]; exact ((hr c hc).valid.valid d c' hcd).lowerBoth
  downLen := by
    intro d b hb
    exact (C04_shared_within_one_complex cs m B h (fun c hc => (hr c hc).valid) d b hb).2.1
  vertices := by
    cases hb : B.cochains[0]? with
    | none => rw [attr_none hb]
    | some b =>
      rw [attr_of hb, (C01_complex_batch_adjacency cs m B h 0 b hb).2.1]
      unfold unionOf
      rw [if_neg]
      rintro ⟨c, hc, hs⟩
      dsimp only at hs
      rw [(hr c hc).vertices] at hs
      simp at hs
  range := batch_inRange h hr

theorem filter_flatMap_block {C A : Type} {cs : List C} {f : C → Nat → List A} {P : A → Bool}
    {i : Nat} {c : C} (hc : cs[i]? = some c)
    (hP : ∀ j c', cs[j]? = some c' → j ≠ i → ∀ a ∈ f c' j, P a = false) :
    (cs.zipIdx.flatMap fun ci => f ci.1 ci.2).filter P = (f c i).filter P := by
  rw [List.filter_flatMap]
  have := filter_blocks (cs := cs) (s := 0) (f := fun c j => (f c j).filter P) (P := P) (i := i) hc
    (by
      intro j c' hj a ha
      rw [Nat.zero_add] at ha
      obtain ⟨ha, hPa⟩ := List.mem_filter.mp ha
      constructor
      · intro _
        by_contra hne
        rw [hP j c' hj hne a ha] at hPa
        simp at hPa
      · intro _; exact hPa)
  rw [Nat.zero_add] at this
  rw [← this, List.filter_flatMap]
  simp

/-- A complex of a batch, up to the dimension of the batch, sits in the batch as it is. -/
theorem batch_localIso {cs : List (Complex R L)} {m : Nat} {B : Complex R L}
    (h : fromComplexList cs m = .ok B) (hr : ∀ comp ∈ cs, comp.Ready) {i : Nat}
    {comp : Complex R L} (hi : cs[i]? = some comp) :
    LocalIso (comp.view.upTo m) B.view (inBatch cs i) := by
  have hrc := hr comp (List.mem_of_getElem? hi)
  have hX : ∀ d, ((comp.view.upTo m).X d).length = if d ≤ m then comp.cellsIn d else 0 := by
    intro d
    simp only [View.upTo]
    split
    · exact ready_X_length hrc d
    · rfl
  constructor
  · intro d c hc
    rw [hX] at hc
    by_cases hd : d ≤ m
    · rw [if_pos hd] at hc
      rw [batch_X h hr hd]
      simp only [View.upTo, if_pos hd]
      have hsum : before (Complex.cellsIn d) cs i = ((cs.take i).flatMap fun c => c.view.X d).length := by
        rw [List.length_flatMap]
        unfold before
        congr 1
        exact List.map_congr_left fun c hc =>
          (ready_X_length (hr c (List.mem_of_mem_take hc)) d).symm
      have hsplit : cs = cs.take i ++ comp :: cs.drop (i + 1) := by
        obtain ⟨hlt, he⟩ := List.getElem?_eq_some_iff.mp hi
        rw [← he, ← List.drop_eq_getElem_cons hlt, List.take_append_drop]
      have hfm : cs.flatMap (fun c => c.view.X d) = (cs.take i).flatMap (fun c => c.view.X d) ++
          (comp.view.X d ++ (cs.drop (i + 1)).flatMap fun c => c.view.X d) := by
        conv_lhs => rw [hsplit]
        rw [List.flatMap_append, List.flatMap_cons]
      unfold inBatch
      rw [hsum, hfm, List.getElem?_append_right (by omega),
        Nat.add_sub_cancel, List.getElem?_append_left (by rw [ready_X_length hrc]; exact hc)]
    · rw [if_neg hd] at hc; omega
  · intro d c hc
    rw [hX] at hc
    by_cases hd : d + 1 ≤ m
    · rw [if_pos (by omega)] at hc
      rw [batch_up h hr hd]
      simp only [View.upTo, if_pos hd]
      rw [filter_flatMap_block (f := fun c j => (c.view.up d).map (placeUp cs d j)) hi, List.filter_map]
      · have : ((comp.view.up d).filter ((fun p => p.1.2 == inBatch cs i d c) ∘ placeUp cs d i)) =
            (comp.view.up d).filter (fun p => p.1.2 == c) := by
          apply List.filter_congr
          intro p hp
          have := ((ready_inRange hrc).up d p hp).2.1
          simp [placeUp, inBatch]
        rw [this]
        exact List.Perm.refl _
      · intro j c' hj hne a ha
        obtain ⟨p, hp, rfl⟩ := List.mem_map.mp ha
        rw [beq_eq_false_iff_ne]
        intro he
        have hrj := hr c' (List.mem_of_getElem? hj)
        have := ((ready_inRange hrj).up d p hp).2.1
        rw [ready_X_length hrj] at this
        exact hne (inBatch_inj hj this hi hc he).1
    · simp only [View.upTo, if_neg hd]
      simp only [Complex.view, batch_X_none h (show m < d + 1 by omega)]
      simp
  · intro d c hc
    rw [hX] at hc
    by_cases hd : d ≤ m
    · rw [if_pos (by omega)] at hc
      rw [batch_down h hr hd]
      simp only [View.upTo, if_pos hd]
      rw [filter_flatMap_block (f := fun c j => (c.view.down d).map (placeDown cs d j)) hi,
        List.filter_map]
      · have : ((comp.view.down d).filter ((fun p => p.1.2 == inBatch cs i d c) ∘ placeDown cs d i)) =
            (comp.view.down d).filter (fun p => p.1.2 == c) := by
          apply List.filter_congr
          intro p hp
          simp [placeDown, inBatch]
        rw [this]
        exact List.Perm.refl _
      · intro j c' hj hne a ha
        obtain ⟨p, hp, rfl⟩ := List.mem_map.mp ha
        rw [beq_eq_false_iff_ne]
        intro he
        have hrj := hr c' (List.mem_of_getElem? hj)
        have := ((ready_inRange hrj).down d p hp).2.1
        rw [ready_X_length hrj] at this
        exact hne (inBatch_inj hj this hi hc he).1
    · rw [if_neg (by omega)] at hc; omega
  · intro d c hc
    rw [hX] at hc
    by_cases hd : d ≤ m
    · rw [if_pos (by omega)] at hc
      rw [batch_bnd h hr hd]
      simp only [View.upTo, if_pos hd]
      rw [filter_flatMap_block (f := fun c j => (c.view.bnd d).map (placeBnd cs d j)) hi,
        List.filter_map]
      · have : ((comp.view.bnd d).filter ((fun p => p.2 == inBatch cs i d c) ∘ placeBnd cs d i)) =
            (comp.view.bnd d).filter (fun p => p.2 == c) := by
          apply List.filter_congr
          intro p hp
          simp [placeBnd, inBatch]
        rw [this]
        exact List.Perm.refl _
      · intro j c' hj hne a ha
        obtain ⟨p, hp, rfl⟩ := List.mem_map.mp ha
        rw [beq_eq_false_iff_ne]
        intro he
        have hrj := hr c' (List.mem_of_getElem? hj)
        have := ((ready_inRange hrj).bnd d p hp).2
        rw [ready_X_length hrj] at this
        exact hne (inBatch_inj hj this hi hc he).1
    · rw [if_neg (by omega)] at hc; omega

theorem upTo_inRange {v : View R} (h : v.InRange) (m : Nat) : (v.upTo m).InRange := by
  constructor
  · intro d p hp
    simp only [View.upTo] at hp ⊢
    by_cases hd : d + 1 ≤ m
    · rw [if_pos hd] at hp
      rw [if_pos (by omega), if_pos hd]
      exact h.up d p hp
    · rw [if_neg hd] at hp; simp at hp
  · intro d p hp
    simp only [View.upTo] at hp
    by_cases hd : d ≤ m
    · rw [if_pos hd] at hp
      cases d with
      | zero => exact absurd (h.down 0 p hp).2.2 (Nat.not_lt_zero _)
      | succ d =>
        simp only [View.upTo, View.below]
        rw [if_pos hd, if_pos (by omega)]
        exact h.down (d + 1) p hp
    · rw [if_neg hd] at hp; simp at hp
  · intro d p hp
    simp only [View.upTo] at hp
    by_cases hd : d ≤ m
    · rw [if_pos hd] at hp
      cases d with
      | zero => exact absurd (h.bnd 0 p hp).1 (Nat.not_lt_zero _)
      | succ d =>
        simp only [View.upTo, View.below]
        rw [if_pos hd, if_pos (by omega)]
        exact h.bnd (d + 1) p hp
    · rw [if_neg hd] at hp; simp at hp

end Verif
