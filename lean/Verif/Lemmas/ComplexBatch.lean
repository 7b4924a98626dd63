import Verif.Lemmas.Complex

/-!
# Lemmas on batching of complexes
-/

namespace Verif

variable {F L : Type}

/-- The cochain a complex contributes in dimension `d`, when its sizes are known. -/
def orEmpty (d : Nat) (comp : Complex F L) : Cochain F L :=
  match comp.cochains[d]? with
  | some c => c
  | none =>
    match d with
    | 0 => { dim := 0 }
    | d + 1 =>
      match comp.cochains[d]? with
      | none => { dim := d + 1 }
      | some below => { dim := d + 1, numCellsDownAttr := some (below.numCells.toOption.join) }

theorem cochainOrEmpty_inv {d : Nat} {comp : Complex F L} {c : Cochain F L}
    (h : cochainOrEmpty d comp = .ok c) : c = orEmpty d comp := by
  unfold cochainOrEmpty at h
  unfold orEmpty
  cases hd : comp.cochains[d]? with
  | some c' => rw [hd] at h; simp only [ok_inj] at h; exact h.symm
  | none =>
    rw [hd] at h
    dsimp only at h ⊢
    cases d with
    | zero => simp only [ok_inj] at h; exact h.symm
    | succ d =>
      cases hb : comp.cochains[d]? with
      | none => simp only [hb, ok_inj] at h; simp only [hb]; exact h.symm
      | some b =>
        simp only [hb] at h ⊢
        obtain ⟨n, hn, h⟩ := bind_eq_ok.mp h
        rw [hn]
        cases h
        rfl

theorem orEmpty_of_none {d : Nat} {comp : Complex F L} (h : comp.cochains[d]? = none) :
    ∃ n, orEmpty d comp = { dim := d, numCellsDownAttr := n } := by
  unfold orEmpty
  rw [h]
  cases d with
  | zero => exact ⟨none, rfl⟩
  | succ d =>
    cases hb : comp.cochains[d]? with
    | none => simp only [hb]; exact ⟨none, rfl⟩
    | some b => simp only [hb]; exact ⟨_, rfl⟩

theorem orEmpty_of_some {d : Nat} {comp : Complex F L} {c : Cochain F L}
    (h : comp.cochains[d]? = some c) : orEmpty d comp = c := by
  unfold orEmpty; rw [h]

theorem mapE_cochainOrEmpty_inv {d : Nat} {cs : List (Complex F L)} {ds : List (Cochain F L)}
    (h : mapE (cochainOrEmpty d) cs = .ok ds) : ds = cs.map (orEmpty d) := by
  rw [mapE_eq_ok_iff] at h
  induction h with
  | nil => rfl
  | cons hab _ ih => rw [List.map_cons, ← ih, ← cochainOrEmpty_inv hab]

theorem max?_map_ne_none {A : Type} {f : A → Nat} {l : List A} (h : l ≠ []) :
    ∃ m, (l.map f).max? = some m := by
  cases hm : (l.map f).max? with
  | none => rw [List.max?_eq_none_iff] at hm; simp at hm; exact absurd hm h
  | some m => exact ⟨m, rfl⟩

/-- What `from_complex_list` has done when it succeeds. -/
structure ComplexBatchFacts (cs : List (Complex F L)) (maxDim : Nat) (B : Complex F L) : Prop where
  ne : cs ≠ []
  dimension : ∃ m, (cs.map Complex.dimension).max? = some m ∧ B.dimension = min m maxDim
  numComplexes : B.numComplexes = some cs.length
  y : B.y = labelLoop true [] cs
  coherent : B.Coherent
  cochain : ∀ d b, B.cochains[d]? = some b → ∃ b0 u l,
    fromCochainList (cs.map (orEmpty d)) = .ok b0 ∧
    b = { b0 with numCellsUpAttr := u, numCellsDownAttr := l }

/-- A constructed complex is coherent (used for `C08`). -/
theorem new_coherent {cs : List (Cochain F L)} {y : Option (List L)}
    {k : Option Nat} {comp : Complex F L} (h : Complex.new cs y k = .ok comp) :
    comp.Coherent ∧ comp.y = y ∧
    ∀ d c, comp.cochains[d]? = some c → ∃ c0 u l, cs[d]? = some c0 ∧
      c = { c0 with numCellsUpAttr := u, numCellsDownAttr := l } ∧
      c.numCells = c0.numCells ∧ (d = comp.dimension → c.numCellsUp = c0.numCellsUp) := by
  obtain ⟨hne, hlen, hdim, hk, rfl⟩ := complexNew_eq_ok.mp h
  generalize k.getD (cs.length - 1) = m at *
  have hl : (consolidated none (cs.take (m + 1))).length = m + 1 := by
    rw [consolidated_length]; simp; omega
  have htake : ∀ i, i ≤ m → (cs.take (m + 1))[i]? = cs[i]? :=
    fun i hi => List.getElem?_take_of_lt (by omega)
  have hbound : ∀ {i : Nat} {c : Cochain F L},
      (consolidated none (cs.take (m + 1)))[i]? = some c → i ≤ m := by
    intro i c hi
    have := (List.getElem?_eq_some_iff.mp hi).1
    omega
  have hget : ∀ {i : Nat} {c : Cochain F L},
      (consolidated none (cs.take (m + 1)))[i]? = some c → ∃ c0, cs[i]? = some c0 ∧
        c = { c0 with
          numCellsUpAttr := recorded (cs.take (m + 1))[i + 1]? c0.numCellsUpAttr
          numCellsDownAttr := recorded (if i = 0 then none else (cs.take (m + 1))[i - 1]?)
            c0.numCellsDownAttr } := by
    intro i c hi
    have him := hbound hi
    rw [consolidated_get, htake i him, Option.map_eq_some_iff] at hi
    obtain ⟨c0, h0, rfl⟩ := hi
    exact ⟨c0, h0, rfl⟩
  refine ⟨⟨hl, ?_, ?_, ?_⟩, rfl, ?_⟩
  · intro d c hd
    obtain ⟨c0, h0, rfl⟩ := hget hd
    exact hdim d c0 (hbound hd) h0
  · intro d c c' hd hd'
    have hm := hbound hd'
    obtain ⟨c0, h0, rfl⟩ := hget hd
    obtain ⟨c0', h0', rfl⟩ := hget hd'
    obtain ⟨n, hn⟩ := hk (by omega) (d + 1) c0' hm h0'
    show Cochain.numCellsUp _ = c0'.numCells
    simp only [Cochain.numCellsUp, htake (d + 1) hm, h0', recorded, hn, count_of hn]
  · intro d c c' hd hd'
    have hm := hbound hd'
    obtain ⟨c0, h0, rfl⟩ := hget hd
    obtain ⟨c0', h0', rfl⟩ := hget hd'
    obtain ⟨n, hn⟩ := hk (by omega) d c0 (by omega) h0
    have hdim' := hdim (d + 1) c0' hm h0'
    show Cochain.numCellsDown _ = c0.numCells
    simp only [Cochain.numCellsDown, hdim', Nat.add_eq_zero_iff, Nat.one_ne_zero, and_false, if_false,
      Nat.add_sub_cancel, htake d (by omega), h0, recorded, hn, count_of hn]
  · intro d c hd
    obtain ⟨c0, h0, rfl⟩ := hget hd
    refine ⟨c0, _, _, h0, rfl, rfl, ?_⟩
    intro hdm
    have hdm : d = m := hdm
    have : (cs.take (m + 1))[d + 1]? = none := by
      rw [List.getElem?_eq_none]; simp; omega
    simp only [Cochain.numCellsUp, this, recorded]

theorem fromComplexList_inv {cs : List (Complex F L)} {maxDim : Nat} {B : Complex F L}
    (h : fromComplexList cs maxDim = .ok B) : ComplexBatchFacts cs maxDim B := by
  unfold fromComplexList at h
  cases hm : (cs.map Complex.dimension).max? with
  | none => rw [hm] at h; simp at h
  | some m =>
    rw [hm] at h
    dsimp only at h
    obtain ⟨dss, hdss, h⟩ := bind_eq_ok.mp h
    obtain ⟨bs, hbs, h⟩ := bind_eq_ok.mp h
    unfold ComplexBatch.new at h
    obtain ⟨c, hc, h⟩ := bind_eq_ok.mp h
    cases h
    obtain ⟨co, hy, hs⟩ := new_coherent hc
    have hlen : bs.length = min m maxDim + 1 := by
      rw [mapE_length hbs, mapE_length hdss]; simp
    have hdim : c.dimension = min m maxDim := by
      rw [(complexNew_eq_ok.mp hc).2.2.2.2]; simp [hlen]
    refine ⟨?_, ⟨m, hm, rfl⟩, rfl, hy, ⟨by rw [← hdim]; exact co.len, co.dim, co.up, co.down⟩, ?_⟩
    · rintro rfl; simp at hm
    · intro d b hb
      obtain ⟨c0, u, l, h0, he, _⟩ := hs d b hb
      rw [mapE_eq_ok_iff] at hdss hbs
      have hd : d < min m maxDim + 1 := by
        have := (List.getElem?_eq_some_iff.mp h0).1; omega
      have h1 : (List.range (min m maxDim + 1))[d]? = some d := List.getElem?_range hd
      have h1' : d < (List.range (min m maxDim + 1)).length := by simpa using hd
      have hdl : d < dss.length := by rw [← hdss.length_eq]; exact h1'
      have e1 := List.Forall₂.get hdss h1' hdl
      have hbl : d < bs.length := by omega
      have e2 := List.Forall₂.get hbs hdl hbl
      simp only [List.get_eq_getElem, List.getElem_range] at e1 e2
      rw [mapE_cochainOrEmpty_inv e1] at e2
      refine ⟨c0, u, l, ?_, he⟩
      rw [e2]
      rw [List.getElem?_eq_getElem hbl] at h0
      cases h0; rfl

theorem unionOf_map {C D A : Type} (get : D → Option (List A)) (place : Nat → A → A) (f : C → D)
    (cs : List C) : unionOf get place (cs.map f) = unionOf (fun c => get (f c)) place cs := by
  unfold unionOf
  simp only [List.mem_map, exists_exists_and_eq_and]
  split
  · congr 1
    rw [List.zipIdx_map, List.flatMap_map]
    rfl
  · rfl

theorem unionOf_congr {C A : Type} {get get' : C → Option (List A)} {place place' : Nat → A → A}
    {cs : List C} (h : ∀ c ∈ cs, get c = get' c) (hp : ∀ i a, place i a = place' i a) :
    unionOf get place cs = unionOf get' place' cs := by
  unfold unionOf
  have e : (∃ c ∈ cs, (get c).isSome) ↔ (∃ c ∈ cs, (get' c).isSome) := by
    constructor
    · rintro ⟨c, hc, hs⟩; exact ⟨c, hc, by rwa [← h c hc]⟩
    · rintro ⟨c, hc, hs⟩; exact ⟨c, hc, by rwa [h c hc]⟩
  have hp' : place = place' := by funext i a; exact hp i a
  simp only [e, hp']
  split
  · congr 1
    rw [List.flatMap_def, List.flatMap_def]
    congr 1
    apply List.map_congr_left
    rintro ⟨c, i⟩ hci
    have : c ∈ cs := by
      rw [List.mk_mem_zipIdx_iff_getElem?] at hci
      exact List.mem_of_getElem? hci
    rw [h c this]
  · rfl

theorem before_map {C D : Type} (count : D → Nat) (f : C → D) (cs : List C) (i : Nat) :
    before count (cs.map f) i = before (fun c => count (f c)) cs i := by
  unfold before; rw [← List.map_take, List.map_map]; rfl

theorem before_congr {C : Type} {f g : C → Nat} {cs : List C} (h : ∀ c ∈ cs, f c = g c) (i : Nat) :
    before f cs i = before g cs i := by
  unfold before
  congr 1
  exact List.map_congr_left fun c hc => h c (List.mem_of_mem_take hc)

theorem attr_orEmpty {A : Type} (d : Nat) (comp : Complex F L) (get : Cochain F L → Option A)
    (h : ∀ n, get { dim := d, numCellsDownAttr := n } = none) :
    get (orEmpty d comp) = comp.attr d get := by
  unfold Complex.attr
  cases hd : comp.cochains[d]? with
  | some c => rw [orEmpty_of_some hd]; rfl
  | none =>
    obtain ⟨n, hn⟩ := orEmpty_of_none hd
    rw [hn, h]; rfl

theorem count_orEmpty (d : Nat) (comp : Complex F L) :
    (orEmpty d comp).count = comp.cellsIn d := by
  unfold Complex.cellsIn
  cases hd : comp.cochains[d]? with
  | some c => rw [orEmpty_of_some hd]; rfl
  | none =>
    obtain ⟨n, hn⟩ := orEmpty_of_none hd
    rw [hn]; rfl

theorem countDown_orEmpty (d : Nat) (comp : Complex F L) (hco : comp.Coherent) :
    (orEmpty d comp).countDown = comp.cellsBelow d := by
  unfold orEmpty Complex.cellsBelow
  cases d with
  | zero =>
    cases hd : comp.cochains[0]? with
    | none => rfl
    | some c => simp [Cochain.countDown, Cochain.numCellsDown, hco.dim 0 c hd]
  | succ d =>
    cases hd : comp.cochains[d + 1]? with
    | none =>
      dsimp only [Complex.cellsIn]
      cases hb : comp.cochains[d]? with
      | none => simp [Cochain.countDown, Cochain.numCellsDown]
      | some b =>
        simp only [Cochain.countDown, Cochain.numCellsDown, Nat.add_eq_zero_iff, Nat.one_ne_zero,
          and_false, if_false, Option.map_some, Option.getD_some, Cochain.count]
        cases b.numCells with
        | error e => rfl
        | ok n => cases n <;> rfl
    | some c =>
      have hlt : d < comp.cochains.length := by
        have := (List.getElem?_eq_some_iff.mp hd).1; omega
      have hb := List.getElem?_eq_getElem hlt
      have := hco.down d _ c hb hd
      simp [Complex.cellsIn, hb, Cochain.countDown, this, Cochain.count]

/-- The top cochain reports no cells above. -/
def Complex.TopEmpty (comp : Complex F L) : Prop :=
  ∀ c, comp.cochains[comp.dimension]? = some c → c.countUp = 0

theorem Complex.Valid.topEmpty {comp : Complex F L} (h : comp.Valid) : comp.TopEmpty := by
  intro c hc
  obtain ⟨n, hn, h0⟩ := h.top c hc
  cases n with
  | none => simp [Cochain.countUp, hn]
  | some n => simpa [Cochain.countUp, hn] using h0

theorem countUp_orEmpty (d : Nat) (comp : Complex F L) (hco : comp.Coherent)
    (htop : comp.TopEmpty) : (orEmpty d comp).countUp = comp.cellsIn (d + 1) := by
  cases hd : comp.cochains[d]? with
  | none =>
    obtain ⟨n, hn⟩ := orEmpty_of_none hd
    have : comp.cochains[d + 1]? = none := by
      rw [List.getElem?_eq_none_iff] at hd ⊢; omega
    simp only [Complex.cellsIn, this, hn]
    rfl
  | some c =>
    rw [orEmpty_of_some hd]
    cases hu : comp.cochains[d + 1]? with
    | some u =>
      have := hco.up d c u hd hu
      simp [Complex.cellsIn, hu, Cochain.countUp, this, Cochain.count]
    | none =>
      have h1 := (List.getElem?_eq_some_iff.mp hd).1
      rw [List.getElem?_eq_none_iff] at hu
      have h2 := hco.len
      have : d = comp.dimension := by omega
      subst this
      simpa [Complex.cellsIn, List.getElem?_eq_none hu] using htop c hd

/-- The filter of a concatenation of blocks by a predicate that holds exactly on block `i`. -/
theorem filter_blocks {C A : Type} {cs : List C} {f : C → Nat → List A} {P : A → Bool} {i s : Nat}
    {c : C} (hc : cs[i]? = some c)
    (hP : ∀ j c', cs[j]? = some c' → ∀ a ∈ f c' (s + j), (P a = true ↔ j = i)) :
    ((cs.zipIdx s).flatMap fun ci => f ci.1 ci.2).filter P = f c (s + i) := by
  induction cs generalizing i s with
  | nil => simp at hc
  | cons e cs ih =>
    rw [List.zipIdx_cons, List.flatMap_cons, List.filter_append]
    cases i with
    | zero =>
      simp at hc; subst hc
      have h1 : (f e s).filter P = f e s := by
        rw [List.filter_eq_self]
        intro a ha
        exact (hP 0 e rfl a ha).mpr rfl
      have h2 : ((cs.zipIdx (s + 1)).flatMap fun ci => f ci.1 ci.2).filter P = [] := by
        rw [List.filter_eq_nil_iff]
        intro a ha hPa
        simp only [List.mem_flatMap, Prod.exists] at ha
        obtain ⟨c', j, hj, ha⟩ := ha
        rw [List.mk_mem_zipIdx_iff_le_and_getElem?_sub] at hj
        have e1 : s + 1 + (j - (s + 1)) = j := by omega
        have := (hP (j - (s + 1) + 1) c' (by simpa using hj.2) a
          (by rw [show s + (j - (s + 1) + 1) = j by omega]; exact ha)).mp hPa
        omega
      simp [h1, h2]
    | succ i =>
      have h1 : (f e s).filter P = [] := by
        rw [List.filter_eq_nil_iff]
        intro a ha hPa
        have := (hP 0 e rfl a ha).mp hPa
        omega
      have := ih (i := i) (s := s + 1) (by simpa using hc) (by
        intro j c' hj a ha
        have := hP (j + 1) c' (by simpa using hj) a
          (by rw [show s + (j + 1) = s + 1 + j by omega]; exact ha)
        rw [this]; omega)
      rw [h1, List.nil_append]
      rw [this]
      congr 1; omega

theorem zip_flatMap_blocks {C A B : Type} (cs : List C) (f : C → List A) (g : C → List B)
    (h : ∀ c ∈ cs, (f c).length = (g c).length) :
    (cs.flatMap f).zip (cs.flatMap g) = cs.flatMap fun c => (f c).zip (g c) := by
  induction cs with
  | nil => rfl
  | cons c cs ih =>
    simp only [List.flatMap_cons]
    rw [List.zip_append (h c (by simp)), ih fun c hc => h c (by simp [hc])]

theorem inSeg_shift {C : Type} {count : C → Nat} {cs : List C} {i j k : Nat} {c : C}
    (hc : cs[j]? = some c) (hk : k < count c) (hi : i < cs.length) :
    inSeg count cs i (k + before count cs j) = true ↔ j = i := by
  have h1 := before_succ_getElem count cs hc
  simp only [inSeg, Bool.and_eq_true, decide_eq_true_eq]
  constructor
  · rintro ⟨h2, h3⟩
    by_contra hne
    rcases Nat.lt_or_gt_of_ne hne with hlt | hgt
    · have := before_le count cs (show j + 1 ≤ i by omega); omega
    · have := before_le count cs (show i + 1 ≤ j by omega); omega
  · rintro rfl
    omega

theorem unionOf_getD {C A : Type} (get : C → Option (List A)) (place : Nat → A → A) (cs : List C) :
    (unionOf get place cs).getD [] =
      cs.zipIdx.flatMap fun ci => ((get ci.1).getD []).map (place ci.2) := by
  unfold unionOf
  split
  · rfl
  · rename_i h
    rw [Option.getD_none, eq_comm, List.flatMap_eq_nil_iff]
    rintro ⟨c, i⟩ hci
    rw [List.mk_mem_zipIdx_iff_getElem?] at hci
    have : get c = none := by
      cases hg : get c with
      | none => rfl
      | some l => exact absurd ⟨c, List.mem_of_getElem? hci, by simp [hg]⟩ h
    simp [this]

/-- A check of `ValidCochain`, for examples. -/
def validCochainB (c : Cochain F L) (nDown n nUp : Nat) : Bool :=
  c.batch.isNone && c.ptr.isNone &&
  (match c.x with | some x => x.length == n | none => true) &&
  (c.upperIndex.getD []).all (fun p => p.1 < n && p.2 < n) &&
  (c.sharedCoboundaries.getD []).length == (c.upperIndex.getD []).length &&
  (c.upperIndex.isSome == c.sharedCoboundaries.isSome) &&
  (c.sharedCoboundaries.getD []).all (· < nUp) &&
  (c.lowerIndex.getD []).all (fun p => p.1 < n && p.2 < n) &&
  (c.sharedBoundaries.getD []).length == (c.lowerIndex.getD []).length &&
  (c.lowerIndex.isSome == c.sharedBoundaries.isSome) &&
  (c.sharedBoundaries.getD []).all (· < nDown) &&
  (c.boundaryIndex.getD []).all (fun p => p.1 < nDown && p.2 < n)

theorem validCochainB_sound {c : Cochain F L} {nDown n nUp : Nat}
    (h : validCochainB c nDown n nUp = true) : ValidCochain c nDown n nUp := by
  simp only [validCochainB, Bool.and_eq_true, Option.isNone_iff_eq_none, beq_iff_eq,
    List.all_eq_true, decide_eq_true_eq] at h
  obtain ⟨⟨⟨⟨⟨⟨⟨⟨⟨⟨⟨h1, h2⟩, h3⟩, h4⟩, h5⟩, h6⟩, h7⟩, h8⟩, h9⟩, h10⟩, h11⟩, h12⟩ := h
  refine ⟨⟨h1, h2⟩, ?_, h4, h5, h6, h7, h8, h9, h10, h11, h12⟩
  intro x hx
  rw [hx] at h3
  simpa using h3

/-- A check of `Complex.Valid`, for examples. -/
def Complex.validB (comp : Complex F L) : Bool :=
  comp.cochains.length == comp.dimension + 1 &&
  (List.range comp.cochains.length).all fun d =>
    match comp.cochains[d]? with
    | none => true
    | some c =>
      c.dim == d && decide (c.numCells = .ok (some c.count)) &&
      validCochainB c (comp.cellsBelow d) (comp.cellsIn d) (comp.cellsIn (d + 1)) &&
      (match comp.cochains[d + 1]? with
        | none => decide (c.numCellsUp = .ok (some 0))
        | some c' => decide (c.numCellsUp = c'.numCells) && decide (c'.numCellsDown = c.numCells))

theorem validB_sound {comp : Complex F L} (h : comp.validB = true) : comp.Valid := by
  simp only [Complex.validB, Bool.and_eq_true, beq_iff_eq, List.all_eq_true, List.mem_range] at h
  obtain ⟨hlen, h⟩ := h
  have hd : ∀ (d : Nat) (c : Cochain F L), comp.cochains[d]? = some c →
      ((c.dim = d ∧ c.numCells = .ok (some c.count)) ∧
      validCochainB c (comp.cellsBelow d) (comp.cellsIn d) (comp.cellsIn (d + 1)) = true) ∧
      (match comp.cochains[d + 1]? with
        | none => decide (c.numCellsUp = .ok (some 0))
        | some c' => decide (c.numCellsUp = c'.numCells) &&
          decide (c'.numCellsDown = c.numCells)) = true := by
    intro d c hc
    have := h d (List.getElem?_eq_some_iff.mp hc).1
    rw [hc] at this
    simpa only [Bool.and_eq_true, beq_iff_eq, decide_eq_true_eq] using this
  refine { len := hlen, dim := ?_, up := ?_, down := ?_, known := ?_, top := ?_, valid := ?_ }
  · intro d c hc; exact (hd d c hc).1.1.1
  · intro d c c' hc hc'
    have := (hd d c hc).2
    rw [hc'] at this
    simp only [Bool.and_eq_true, decide_eq_true_eq] at this
    exact this.1
  · intro d c c' hc hc'
    have := (hd d c hc).2
    rw [hc'] at this
    simp only [Bool.and_eq_true, decide_eq_true_eq] at this
    exact this.2
  · intro c hc
    obtain ⟨d, hd'⟩ := List.mem_iff_getElem?.mp hc
    exact ⟨_, (hd d c hd').1.1.2⟩
  · intro c hc
    have := (hd _ c hc).2
    rw [List.getElem?_eq_none (by omega)] at this
    simp only [decide_eq_true_eq] at this
    exact ⟨_, this, rfl⟩
  · intro d c hc
    exact validCochainB_sound (hd d c hc).1.2

theorem orEmpty_dim {d : Nat} {comp : Complex F L} (h : comp.Valid) : (orEmpty d comp).dim = d := by
  cases hd : comp.cochains[d]? with
  | some c => rw [orEmpty_of_some hd]; exact h.dim d c hd
  | none => obtain ⟨n, hn⟩ := orEmpty_of_none hd; rw [hn]

theorem cochainOrEmpty_ok {comp : Complex F L} (h : comp.Valid) (d : Nat) :
    cochainOrEmpty d comp = .ok (orEmpty d comp) := by
  have : ∃ c, cochainOrEmpty d comp = .ok c := by
    unfold cochainOrEmpty
    cases hd : comp.cochains[d]? with
    | some c => exact ⟨c, rfl⟩
    | none =>
      cases d with
      | zero => exact ⟨_, rfl⟩
      | succ d =>
        cases hb : comp.cochains[d]? with
        | none => exact ⟨_, by simp only [hb]; rfl⟩
        | some b =>
          obtain ⟨n, hn⟩ := h.known b (List.mem_of_getElem? hb)
          exact ⟨_, by simp only [hb, hn]; rfl⟩
  obtain ⟨c, hc⟩ := this
  rw [hc, ← cochainOrEmpty_inv hc]

theorem numCells_orEmpty_ok {comp : Complex F L} (h : comp.Valid) (d : Nat) :
    ∃ n, (orEmpty d comp).numCells = .ok n := by
  cases hd : comp.cochains[d]? with
  | some c =>
    rw [orEmpty_of_some hd]
    obtain ⟨n, hn⟩ := h.known c (List.mem_of_getElem? hd)
    exact ⟨_, hn⟩
  | none => obtain ⟨n, hn⟩ := orEmpty_of_none hd; rw [hn]; exact ⟨none, rfl⟩

theorem numCellsDown_orEmpty_ok {comp : Complex F L} (h : comp.Valid) (d : Nat) :
    ∃ n, (orEmpty d comp).numCellsDown = .ok n := by
  cases hd : comp.cochains[d]? with
  | some c =>
    rw [orEmpty_of_some hd]
    cases d with
    | zero => exact ⟨none, by simp [Cochain.numCellsDown, h.dim 0 c hd]⟩
    | succ d =>
      have hlt : d < comp.cochains.length := by
        have := (List.getElem?_eq_some_iff.mp hd).1; omega
      have hb := List.getElem?_eq_getElem hlt
      obtain ⟨n, hn⟩ := h.known _ (List.mem_of_getElem? hb)
      exact ⟨_, (h.down d _ c hb hd).trans hn⟩
  | none =>
    obtain ⟨n, hn⟩ := orEmpty_of_none hd; rw [hn]
    unfold Cochain.numCellsDown
    split
    · exact ⟨_, rfl⟩
    · cases n with
      | none => exact ⟨_, rfl⟩
      | some n => exact ⟨_, rfl⟩

theorem numCellsUp_orEmpty_ok {comp : Complex F L} (h : comp.Valid) (d : Nat) :
    ∃ n, (orEmpty d comp).numCellsUp = .ok n := by
  cases hd : comp.cochains[d]? with
  | some c =>
    rw [orEmpty_of_some hd]
    cases hu : comp.cochains[d + 1]? with
    | some c' =>
      obtain ⟨n, hn⟩ := h.known _ (List.mem_of_getElem? hu)
      exact ⟨_, (h.up d c c' hd hu).trans hn⟩
    | none =>
      have h1 := (List.getElem?_eq_some_iff.mp hd).1
      rw [List.getElem?_eq_none_iff] at hu
      have h2 := h.len
      have : d = comp.dimension := by omega
      subst this
      obtain ⟨n, hn, _⟩ := h.top c hd
      exact ⟨n, hn⟩
  | none => obtain ⟨n, hn⟩ := orEmpty_of_none hd; rw [hn]; exact ⟨some 0, rfl⟩

theorem plain_orEmpty {comp : Complex F L} (h : comp.Valid) (d : Nat) :
    (orEmpty d comp).batch = none ∧ (orEmpty d comp).ptr = none := by
  cases hd : comp.cochains[d]? with
  | some c => rw [orEmpty_of_some hd]; exact (h.valid d c hd).plain
  | none => obtain ⟨n, hn⟩ := orEmpty_of_none hd; rw [hn]; exact ⟨rfl, rfl⟩

theorem fromCochainList_orEmpty_ok {cs : List (Complex F L)} (hne : cs ≠ [])
    (hv : ∀ comp ∈ cs, comp.Valid) (d : Nat) :
    ∃ b, fromCochainList (cs.map (orEmpty d)) = .ok b := by
  apply fromCochainList_ok
  · simpa using hne
  · intro c hc
    obtain ⟨comp, hcomp, rfl⟩ := List.mem_map.mp hc
    exact plain_orEmpty (hv comp hcomp) d
  · intro c hc
    obtain ⟨comp, hcomp, rfl⟩ := List.mem_map.mp hc
    exact numCells_orEmpty_ok (hv comp hcomp) d
  · intro c hc
    obtain ⟨comp, hcomp, rfl⟩ := List.mem_map.mp hc
    exact numCellsDown_orEmpty_ok (hv comp hcomp) d
  · intro c hc
    obtain ⟨comp, hcomp, rfl⟩ := List.mem_map.mp hc
    exact numCellsUp_orEmpty_ok (hv comp hcomp) d

/-- In a valid featured complex the number of feature rows is the number of cells. -/
theorem featured_rows {comp : Complex F L} (h : comp.Valid) (hf : comp.Featured) (d : Nat) :
    ((orEmpty d comp).x.getD []).length = (orEmpty d comp).count := by
  rw [count_orEmpty]
  cases hd : comp.cochains[d]? with
  | some c =>
    rw [orEmpty_of_some hd]
    obtain ⟨x, hx⟩ := Option.isSome_iff_exists.mp (hf c (List.mem_of_getElem? hd))
    rw [hx]
    exact (h.valid d c hd).rows x hx
  | none =>
    obtain ⟨n, hn⟩ := orEmpty_of_none hd
    rw [hn]; simp [Complex.cellsIn, hd]

theorem batch_count {cs : List (Cochain F L)} {b : Cochain F L}
    (h : fromCochainList cs = .ok b) (hx : ∃ c ∈ cs, c.x.isSome)
    (hrows : ∀ c ∈ cs, (c.x.getD []).length = c.count) :
    b.numCells = .ok (some (cs.map Cochain.count).sum) := by
  have f := fromCochainList_inv h
  have hbx := f.x
  rw [unionOf_some_of hx] at hbx
  unfold Cochain.numCells
  rw [f.explicit.1, hbx]
  simp only [List.map_id', Except.ok.injEq, Option.some.injEq, List.length_flatMap]
  have : (cs.zipIdx.map fun ci => (ci.1.x.getD []).length) = cs.map Cochain.count := by
    have e : (cs.zipIdx.map fun ci => (ci.1.x.getD []).length) =
        (cs.zipIdx.map Prod.fst).map (fun c => (c.x.getD []).length) := by
      rw [List.map_map]; rfl
    rw [e, List.zipIdx_map_fst]
    exact List.map_congr_left hrows
  rw [this]

/-- Batching valid featured complexes succeeds. -/
theorem fromComplexList_ok {cs : List (Complex F L)} (hne : cs ≠ [])
    (hv : ∀ comp ∈ cs, comp.Valid) (hf : ∀ comp ∈ cs, comp.Featured) (maxDim : Nat) :
    ∃ B, fromComplexList cs maxDim = .ok B := by
  obtain ⟨m, hm⟩ := max?_map_ne_none (f := Complex.dimension) hne
  unfold fromComplexList
  rw [hm]
  dsimp only
  rw [mapE_ok (g := fun d => cs.map (orEmpty d))
    (fun d _ => mapE_ok fun comp hc => cochainOrEmpty_ok (hv comp hc) d), ok_bind]
  obtain ⟨g, hg⟩ : ∃ g : Nat → Cochain F L, ∀ d, fromCochainList (cs.map (orEmpty d)) = .ok (g d) :=
    ⟨fun d => (fromCochainList_orEmpty_ok hne hv d).choose,
     fun d => (fromCochainList_orEmpty_ok hne hv d).choose_spec⟩
  rw [mapE_map, mapE_ok (g := g) (fun d _ => hg d), ok_bind]
  unfold ComplexBatch.new
  obtain ⟨top, htop, htopd⟩ : ∃ comp ∈ cs, comp.dimension = m := by
    rw [List.max?_eq_some_iff] at hm
    obtain ⟨c, hc, he⟩ := List.mem_map.mp hm.1
    exact ⟨c, hc, he⟩
  have hcount : ∀ d, d ≤ min m maxDim → ∃ n, (g d).numCells = .ok (some n) := by
    intro d hd
    refine ⟨_, batch_count (hg d) ?_ ?_⟩
    · refine ⟨orEmpty d top, List.mem_map_of_mem htop, ?_⟩
      have hlt : d < top.cochains.length := by rw [(hv top htop).len]; omega
      have hc := List.getElem?_eq_getElem hlt
      rw [orEmpty_of_some hc]
      exact hf top htop _ (List.mem_of_getElem? hc)
    · intro c hc
      obtain ⟨comp, hcomp, rfl⟩ := List.mem_map.mp hc
      exact featured_rows (hv comp hcomp) (hf comp hcomp) d
  have hdim : ∀ d, (g d).dim = d := by
    intro d
    cases cs with
    | nil => exact absurd rfl hne
    | cons c cs =>
      rw [(fromCochainList_inv (hg d)).dim _ _ (List.map_cons ..)]
      exact orEmpty_dim (hv c (by simp))
  have hget : ∀ (i : Nat) (c : Cochain F L),
      ((List.range (min m maxDim + 1)).map g)[i]? = some c → i ≤ min m maxDim ∧ c = g i := by
    intro i c hc
    have hi : i < min m maxDim + 1 := by
      have := (List.getElem?_eq_some_iff.mp hc).1
      simpa using this
    rw [List.getElem?_map, List.getElem?_range hi] at hc
    cases hc
    exact ⟨by omega, rfl⟩
  obtain ⟨c, hc⟩ : ∃ c, Complex.new ((List.range (min m maxDim + 1)).map g)
      (labelLoop true [] cs) none = .ok c := by
    refine ⟨_, complexNew_eq_ok.mpr ⟨by simp, by simp, ?_, ?_, rfl⟩⟩
    · intro i c _ hc
      obtain ⟨_, rfl⟩ := hget i c hc
      exact hdim i
    · intro _ i c _ hc
      obtain ⟨hi, rfl⟩ := hget i c hc
      exact hcount i hi
  rw [hc]
  exact ⟨_, rfl⟩

end Verif
