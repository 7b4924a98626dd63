import Verif.Lemmas.ComplexBatch
import Verif.Lemmas.BatchView

/-!
# Complexes that differ in their features only
-/

namespace Verif

variable {F L : Type}

/-- The same cells, possibly with other features. -/
structure SameStored (c c' : Cochain F L) : Prop where
  eq : c' = { c with x := c'.x }
  count : c'.numCells = c.numCells

/-- The same complex, possibly with other features. -/
structure Refeatured (c c' : Complex F L) : Prop where
  eq : c' = { c with cochains := c'.cochains }
  cells : List.Forall₂ SameStored c.cochains c'.cochains

theorem SameStored.refl (c : Cochain F L) : SameStored c c := ⟨rfl, rfl⟩

theorem SameStored.count_eq {c c' : Cochain F L} (h : SameStored c c') : c'.count = c.count := by
  unfold Cochain.count; rw [h.count]

theorem SameStored.countDown_eq {c c' : Cochain F L} (h : SameStored c c') :
    c'.countDown = c.countDown := by
  rw [h.eq]; rfl

theorem SameStored.countUp_eq {c c' : Cochain F L} (h : SameStored c c') : c'.countUp = c.countUp := by
  rw [h.eq]; rfl

theorem forall₂_get? {A B : Type} {r : A → B → Prop} {l : List A} {l' : List B}
    (h : List.Forall₂ r l l') (i : Nat) :
    (l[i]? = none ∧ l'[i]? = none) ∨ ∃ a b, l[i]? = some a ∧ l'[i]? = some b ∧ r a b := by
  induction h generalizing i with
  | nil => exact .inl ⟨rfl, rfl⟩
  | cons hab _ ih =>
    cases i with
    | zero => exact .inr ⟨_, _, rfl, rfl, hab⟩
    | succ i => exact ih i

theorem Refeatured.dim {c c' : Complex F L} (h : Refeatured c c') : c'.dimension = c.dimension := by
  rw [h.eq]

theorem Refeatured.cellsIn {c c' : Complex F L} (h : Refeatured c c') (d : Nat) :
    c'.cellsIn d = c.cellsIn d := by
  unfold Complex.cellsIn
  rcases forall₂_get? h.cells d with ⟨e1, e2⟩ | ⟨a, b, e1, e2, hab⟩
  · rw [e1, e2]
  · rw [e1, e2]; exact hab.count_eq

theorem Refeatured.orEmpty {c c' : Complex F L} (h : Refeatured c c') (d : Nat) :
    SameStored (orEmpty d c) (orEmpty d c') := by
  unfold Verif.orEmpty
  rcases forall₂_get? h.cells d with ⟨e1, e2⟩ | ⟨a, b, e1, e2, hab⟩
  · rw [e1, e2]
    cases d with
    | zero => exact .refl _
    | succ d =>
      dsimp only
      rcases forall₂_get? h.cells d with ⟨e1, e2⟩ | ⟨a, b, e1, e2, hab⟩
      · rw [e1, e2]; exact .refl _
      · rw [e1, e2]; dsimp only; rw [hab.count]; exact .refl _
  · rw [e1, e2]; exact hab

theorem batchLoop_congr {I : Type} {a b : I → Cochain F L} (is : List I)
    (h : ∀ i ∈ is, (b i).numCells = (a i).numCells) (k n : Nat) :
    batchLoop k n (is.map b) = batchLoop k n (is.map a) := by
  induction is generalizing k n with
  | nil => rfl
  | cons i is ih =>
    simp only [List.map_cons, batchLoop, h i (by simp)]
    simp only [ih fun j hj => h j (by simp [hj])]

/-- Batching cochains that differ in their features gives batches that differ in their features. -/
theorem batch_refeature {I : Type} {is : List I} {a b : I → Cochain F L}
    (h : ∀ i ∈ is, SameStored (a i) (b i)) {p q : Cochain F L}
    (hp : fromCochainList (is.map a) = .ok p) (hq : fromCochainList (is.map b) = .ok q) :
    q = { p with x := q.x } := by
  have f := fromCochainList_inv hp
  have g := fromCochainList_inv hq
  have hb : ∀ i ∈ is, b i = { a i with x := (b i).x } := fun i hi => (h i hi).eq
  have c1 : ∀ k, before Cochain.count (is.map b) k = before Cochain.count (is.map a) k := by
    intro k
    rw [before_map, before_map]
    exact before_congr (fun i hi => (h i hi).count_eq) k
  have c2 : ∀ k, before Cochain.countDown (is.map b) k = before Cochain.countDown (is.map a) k := by
    intro k
    rw [before_map, before_map]
    exact before_congr (fun i hi => (h i hi).countDown_eq) k
  have c3 : ∀ k, before Cochain.countUp (is.map b) k = before Cochain.countUp (is.map a) k := by
    intro k
    rw [before_map, before_map]
    exact before_congr (fun i hi => (h i hi).countUp_eq) k
  have key : ∀ {A : Type} (get : Cochain F L → Option (List A)) (pl pl' : Nat → A → A),
      (∀ (c : Cochain F L) x, get { c with x := x } = get c) → (∀ i t, pl i t = pl' i t) →
      unionOf get pl (is.map b) = unionOf get pl' (is.map a) := by
    intro A get pl pl' hg hpl
    rw [unionOf_map, unionOf_map]
    refine unionOf_congr (fun i hi => ?_) hpl
    rw [hb i hi, hg]
  have e0 : q.dim = p.dim := by
    cases is with
    | nil => exact absurd rfl f.ne
    | cons i is =>
      rw [f.dim _ _ (List.map_cons ..), g.dim _ _ (List.map_cons ..), hb i (by simp)]
  have e1 : q.upperIndex = p.upperIndex := by
    rw [f.upper, g.upper]; exact key _ _ _ (fun _ _ => rfl) (fun i t => by rw [c1])
  have e2 : q.lowerIndex = p.lowerIndex := by
    rw [f.lower, g.lower]; exact key _ _ _ (fun _ _ => rfl) (fun i t => by rw [c1])
  have e3 : q.boundaryIndex = p.boundaryIndex := by
    rw [f.boundary, g.boundary]; exact key _ _ _ (fun _ _ => rfl) (fun i t => by rw [c1, c2])
  have e4 : q.sharedBoundaries = p.sharedBoundaries := by
    rw [f.sb, g.sb]; exact key _ _ _ (fun _ _ => rfl) (fun i t => by rw [c2])
  have e5 : q.sharedCoboundaries = p.sharedCoboundaries := by
    rw [f.sc, g.sc]; exact key _ _ _ (fun _ _ => rfl) (fun i t => by rw [c3])
  have e6 : q.y = p.y := by
    rw [f.y, g.y]; exact key _ _ _ (fun _ _ => rfl) (fun i t => rfl)
  have e7 : q.upperOrient = p.upperOrient := by
    rw [f.upperOrient, g.upperOrient]; exact key _ _ _ (fun _ _ => rfl) (fun i t => rfl)
  have e8 : q.lowerOrient = p.lowerOrient := by
    rw [f.lowerOrient, g.lowerOrient]; exact key _ _ _ (fun _ _ => rfl) (fun i t => rfl)
  have e9 : q.mask = p.mask := by
    rw [f.mask, g.mask]; exact key _ _ _ (fun _ _ => rfl) (fun i t => rfl)
  obtain ⟨r, hr, h10, h11⟩ := f.segs
  obtain ⟨s, hs, h12, h13⟩ := g.segs
  rw [batchLoop_congr is (fun i hi => (h i hi).count), hr] at hs
  cases hs
  have e10 : q.batch = p.batch := by rw [h10, h12]
  have e11 : q.ptr = p.ptr := by rw [h11, h13]
  obtain ⟨f1, f2, f3⟩ := f.explicit
  obtain ⟨g1, g2, g3⟩ := g.explicit
  cases p; cases q
  simp only at *
  simp only [Cochain.mk.injEq, true_and, *]


theorem labelLoop_congr {f : Complex F L → Complex F L} (cs : List (Complex F L))
    (h : ∀ c ∈ cs, (f c).y = c.y) (b : Bool) (acc : List L) :
    labelLoop b acc (cs.map f) = labelLoop b acc cs := by
  induction cs generalizing b acc with
  | nil => rfl
  | cons c cs ih =>
    have := ih fun c hc => h c (by simp [hc])
    simp only [List.map_cons, labelLoop, h c (by simp), this]

theorem consolidated_sameCells {cs cs' : List (Cochain F L)} (h : List.Forall₂ SameStored cs cs') :
    ∀ {l l' : Option (Cochain F L)}, (∀ o, recorded l' o = recorded l o) →
      List.Forall₂ SameStored (consolidated l cs) (consolidated l' cs') := by
  induction h with
  | nil => intro l l' _; exact .nil
  | @cons c c' rest rest' hc hr ih =>
    intro l l' hl
    refine .cons ?_ (ih ?_)
    · have e : recorded rest'.head? c'.numCellsUpAttr = recorded rest.head? c.numCellsUpAttr := by
        have : c'.numCellsUpAttr = c.numCellsUpAttr := by rw [hc.eq]
        rw [this]
        cases hr with
        | nil => rfl
        | cons hd _ => simp only [List.head?_cons, recorded, hd.count_eq]
      have e' : recorded l' c'.numCellsDownAttr = recorded l c.numCellsDownAttr := by
        have : c'.numCellsDownAttr = c.numCellsDownAttr := by rw [hc.eq]
        rw [this, hl]
      refine ⟨?_, hc.count⟩
      rw [e, e']
      have := hc.eq
      cases c; cases c'
      simp only [Cochain.mk.injEq] at this ⊢
      simp [this]
    · intro o
      simp only [recorded, hc.count_eq]

/-- What `from_complex_list` returns when all counts are known. -/
theorem fromComplexList_eq {cs : List (Complex F L)} (hne : cs ≠ []) (hv : ∀ comp ∈ cs, comp.Valid)
    {maxDim m : Nat} (hm : (cs.map Complex.dimension).max? = some m) {g : Nat → Cochain F L}
    (hg : ∀ d, fromCochainList (cs.map (orEmpty d)) = .ok (g d))
    (hcount : ∀ d, d ≤ min m maxDim → ∃ n, (g d).numCells = .ok (some n)) :
    fromComplexList cs maxDim = .ok
      { dimension := min m maxDim
        cochains := consolidated none ((List.range (min m maxDim + 1)).map g)
        y := labelLoop true [] cs
        numComplexes := some cs.length } := by
  unfold fromComplexList
  rw [hm]
  dsimp only
  rw [mapE_ok (g := fun d => cs.map (orEmpty d))
    (fun d _ => mapE_ok fun comp hc => cochainOrEmpty_ok (hv comp hc) d), ok_bind]
  rw [mapE_map, mapE_ok (g := g) (fun d _ => hg d), ok_bind]
  unfold ComplexBatch.new
  have hdim : ∀ d, (g d).dim = d := by
    intro d
    cases cs with
    | nil => exact absurd rfl hne
    | cons c cs =>
      rw [(fromCochainList_inv (hg d)).dim _ _ (List.map_cons ..)]
      exact orEmpty_dim (hv c (by simp))
  have hget : ∀ (i : Nat) (c : Cochain F L),
      ((List.range (min m maxDim + 1)).map g)[i]? = some c → i ≤ min m maxDim ∧ c = g i := by
    intro i c hc
    have hi : i < min m maxDim + 1 := by
      have := (List.getElem?_eq_some_iff.mp hc).1
      simpa using this
    rw [List.getElem?_map, List.getElem?_range hi] at hc
    cases hc
    exact ⟨by omega, rfl⟩
  have hc : Complex.new ((List.range (min m maxDim + 1)).map g)
      (labelLoop true [] cs) none = .ok
      { dimension := min m maxDim
        cochains := consolidated none ((List.range (min m maxDim + 1)).map g)
        y := labelLoop true [] cs } := by
    refine complexNew_eq_ok.mpr ⟨by simp, by simp, ?_, ?_, ?_⟩
    · intro i c _ hc
      obtain ⟨_, rfl⟩ := hget i c hc
      exact hdim i
    · intro _ i c _ hc
      obtain ⟨hi, rfl⟩ := hget i c hc
      exact hcount i hi
    · simp [List.take_of_length_le]
  rw [hc]
  rfl

/-- Batches of complexes that differ in their features differ in their features, if the counts of the
batches are those of the cells. -/
theorem batch_refeatured_counts {cs : List (Complex F L)} (hne : cs ≠ []) {f : Complex F L → Complex F L}
    (hf : ∀ c ∈ cs, Refeatured c (f c)) (hv : ∀ c ∈ cs, c.Valid) (hv' : ∀ c ∈ cs, (f c).Valid) {maxDim : Nat}
    (hcount : ∀ d b, (∃ c ∈ cs, d ≤ c.dimension) → fromCochainList (cs.map (orEmpty d)) = .ok b →
      b.numCells = .ok (some (cs.map (Complex.cellsIn d)).sum))
    (hcount' : ∀ d b, (∃ c ∈ cs, d ≤ c.dimension) → fromCochainList ((cs.map f).map (orEmpty d)) = .ok b →
      b.numCells = .ok (some (cs.map (Complex.cellsIn d)).sum)) :
    ∃ B B', fromComplexList cs maxDim = .ok B ∧ fromComplexList (cs.map f) maxDim = .ok B' ∧
      Refeatured B B' := by
  obtain ⟨m, hm⟩ := max?_map_ne_none (f := Complex.dimension) hne
  have hm' : ((cs.map f).map Complex.dimension).max? = some m := by
    rw [List.map_map, ← hm]
    congr 1
    exact List.map_congr_left fun c hc => (hf c hc).dim
  obtain ⟨top, htop, htopd⟩ : ∃ comp ∈ cs, comp.dimension = m := by
    rw [List.max?_eq_some_iff] at hm
    obtain ⟨c, hc, he⟩ := List.mem_map.mp hm.1
    exact ⟨c, hc, he⟩
  have hv2 : ∀ c ∈ cs.map f, c.Valid := by
    intro c hc
    obtain ⟨e, he, rfl⟩ := List.mem_map.mp hc
    exact hv' e he
  obtain ⟨g, hg⟩ : ∃ g : Nat → Cochain F L, ∀ d, fromCochainList (cs.map (orEmpty d)) = .ok (g d) :=
    ⟨fun d => (fromCochainList_orEmpty_ok hne hv d).choose,
     fun d => (fromCochainList_orEmpty_ok hne hv d).choose_spec⟩
  have hne' : cs.map f ≠ [] := by simpa using hne
  obtain ⟨g', hg'⟩ : ∃ g' : Nat → Cochain F L,
      ∀ d, fromCochainList ((cs.map f).map (orEmpty d)) = .ok (g' d) :=
    ⟨fun d => (fromCochainList_orEmpty_ok hne' hv2 d).choose,
     fun d => (fromCochainList_orEmpty_ok hne' hv2 d).choose_spec⟩
  have c1 : ∀ d, d ≤ min m maxDim → (g d).numCells = .ok (some (cs.map (Complex.cellsIn d)).sum) :=
    fun d hd => hcount d _ ⟨top, htop, by omega⟩ (hg d)
  have c2 : ∀ d, d ≤ min m maxDim → (g' d).numCells = .ok (some (cs.map (Complex.cellsIn d)).sum) :=
    fun d hd => hcount' d _ ⟨top, htop, by omega⟩ (hg' d)
  refine ⟨_, _, fromComplexList_eq hne hv hm hg fun d hd => ⟨_, c1 d hd⟩,
    fromComplexList_eq hne' hv2 hm' hg' fun d hd => ⟨_, c2 d hd⟩, ?_, ?_⟩
  · rw [labelLoop_congr cs (fun c hc => by rw [(hf c hc).eq]), List.length_map]
  · refine consolidated_sameCells ?_ fun _ => rfl
    have : ∀ k, k ≤ min m maxDim + 1 → List.Forall₂ SameStored ((List.range k).map g) ((List.range k).map g') := by
      intro k hk
      rw [List.forall₂_map_left_iff, List.forall₂_map_right_iff, List.forall₂_same]
      intro d hd
      have hd : d < k := List.mem_range.mp hd
      have := hg' d
      rw [List.map_map] at this
      exact ⟨batch_refeature (fun c hc => (hf c hc).orEmpty d) (hg d) this,
        (c2 d (by omega)).trans (c1 d (by omega)).symm⟩
    exact this _ le_rfl

/-- Batches of complexes that differ in their features differ in their features, if the counts of the
first batch are those of the cells. -/
theorem batch_refeatured {cs : List (Complex F L)} (hne : cs ≠ []) {f : Complex F L → Complex F L}
    (hf : ∀ c ∈ cs, Refeatured c (f c)) (hv : ∀ c ∈ cs, c.Valid) (hv' : ∀ c ∈ cs, (f c).Valid)
    (hft : ∀ c ∈ cs, (f c).Featured) {maxDim : Nat}
    (hcount : ∀ d b, (∃ c ∈ cs, d ≤ c.dimension) → fromCochainList (cs.map (orEmpty d)) = .ok b →
      b.numCells = .ok (some (cs.map (Complex.cellsIn d)).sum)) :
    ∃ B B', fromComplexList cs maxDim = .ok B ∧ fromComplexList (cs.map f) maxDim = .ok B' ∧
      Refeatured B B' := by
  refine batch_refeatured_counts hne hf hv hv' hcount fun d b hd hb => ?_
  obtain ⟨top, htop, hdt⟩ := hd
  have := batch_count hb ?_ ?_
  · rw [this, List.map_map, List.map_map]
    congr 3
    apply List.map_congr_left
    intro c hc
    show (orEmpty d (f c)).count = _
    rw [count_orEmpty, (hf c hc).cellsIn]
  · refine ⟨orEmpty d (f top), ?_, ?_⟩
    · exact List.mem_map_of_mem (List.mem_map_of_mem htop)
    · have hlt : d < (f top).cochains.length := by
        rw [(hv' top htop).len, (hf top htop).dim]; omega
      have hc := List.getElem?_eq_getElem hlt
      rw [orEmpty_of_some hc]
      exact hft top htop _ (List.mem_of_getElem? hc)
  · intro c hc
    obtain ⟨comp, hcomp, rfl⟩ := List.mem_map.mp hc
    obtain ⟨e, he, rfl⟩ := List.mem_map.mp hcomp
    exact featured_rows (hv' e he) (hft e he) d

/-- `set_xs` with the features of a complex that differs in its features only. -/
theorem setXsLoop_sameCells {cs cs' : List (Cochain F L)} (h : List.Forall₂ SameStored cs cs')
    (hx : ∀ c ∈ cs', ∃ x, c.x = some x ∧ c.numCells = .ok (some x.length)) :
    setXsLoop cs (cs'.map Cochain.x) = .ok cs' := by
  induction h with
  | nil => rfl
  | @cons c c' _ _ hc _ ih =>
    obtain ⟨x, h1, h2⟩ := hx c' (by simp)
    rw [List.map_cons, setXsLoop, h1]
    have : c.setX (some x) = .ok c' := by
      unfold Cochain.setX
      dsimp only
      rw [← hc.count, h2, ok_bind]
      simp only [beq_self_eq_true, pyAssert_true, ok_bind, pure_eq_ok, ok_inj]
      have := hc.eq
      rw [h1] at this
      exact this.symm
    rw [this, ok_bind, ih fun c hc => hx c (by simp [hc])]
    rfl

theorem Refeatured.setXs {c c' : Complex F L} (h : Refeatured c c')
    (hl : c'.cochains.length = c'.dimension + 1)
    (hx : ∀ a ∈ c'.cochains, ∃ x, a.x = some x ∧ a.numCells = .ok (some x.length)) :
    c.setXs (c'.cochains.map Cochain.x) = .ok c' := by
  unfold Complex.setXs
  have : decide ((c'.cochains.map Cochain.x).length ≤ c.dimension + 1) = true := by
    rw [List.length_map, hl, h.dim]; simp
  rw [this, pyAssert_true, ok_bind, setXsLoop_sameCells h.cells hx, ok_bind]
  simp only [pure_eq_ok, ok_inj]
  exact h.eq.symm

end Verif
