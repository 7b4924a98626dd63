import Verif.Spec.Batch
import Mathlib.Data.List.ProdSigma
import Mathlib.Algebra.BigOperators.Group.List.Lemmas

/-! # Lemmas about the batching loop -/

namespace Verif

variable {F L : Type}

/-- The batching loop with total increments. -/
def placedFrom {C A K : Type} [Add K] (get : C → Option (List A)) (shift : K → A → A)
    (incf : C → K) : K → List C → List A
  | _, [] => []
  | cum, c :: cs => ((get c).getD []).map (shift cum) ++ placedFrom get shift incf (incf c + cum) cs

theorem shiftLoop_ok {A K : Type} [Add K] {get : Cochain F L → Option (List A)}
    {shift : K → A → A} {inc : Cochain F L → Py K} {incf : Cochain F L → K}
    {cs : List (Cochain F L)} (h : ∀ c ∈ cs, inc c = .ok (incf c)) (cum : K) :
    shiftLoop get shift inc cum cs = .ok (placedFrom get shift incf cum cs) := by
  induction cs generalizing cum with
  | nil => rfl
  | cons c cs ih =>
    unfold shiftLoop placedFrom
    rw [h c (by simp), ok_bind, ih (fun d hd => h d (by simp [hd])), ok_bind]
    cases get c <;> rfl

theorem shiftLoop_inv {A K : Type} [Add K] {get : Cochain F L → Option (List A)}
    {shift : K → A → A} {inc : Cochain F L → Py K}
    {cs : List (Cochain F L)} {cum : K} {r : List A}
    (h : shiftLoop get shift inc cum cs = .ok r) : ∀ c ∈ cs, ∃ k, inc c = .ok k := by
  induction cs generalizing cum r with
  | nil => simp
  | cons c cs ih =>
    unfold shiftLoop at h
    obtain ⟨k, hk, h⟩ := bind_eq_ok.mp h
    obtain ⟨rest, hrest, h⟩ := bind_eq_ok.mp h
    intro d hd
    rcases List.mem_cons.mp hd with rfl | hd
    · exact ⟨k, hk⟩
    · exact ih hrest d hd

theorem placedFrom_eq {C A K : Type} [AddCommMonoid K] (get : C → Option (List A))
    (shift : K → A → A) (incf : C → K) (cum : K) (cs : List C) (n : Nat) :
    placedFrom get shift incf cum cs =
      (cs.zipIdx n).flatMap fun ci =>
        ((get ci.1).getD []).map (shift (((cs.take (ci.2 - n)).map incf).sum + cum)) := by
  induction cs generalizing cum n with
  | nil => rfl
  | cons c cs ih =>
    unfold placedFrom
    rw [List.zipIdx_cons, List.flatMap_cons, ih (incf c + cum) (n + 1)]
    congr 1
    · simp
    · apply List.flatMap_congr
      rintro ⟨d, j⟩ hdj
      have hj : n + 1 ≤ j := (List.mem_zipIdx hdj).1
      obtain ⟨k, rfl⟩ : ∃ k, j = k + n + 1 := ⟨j - n - 1, by omega⟩
      have e1 : k + n + 1 - n = k + 1 := by omega
      have e2 : k + n + 1 - (n + 1) = k := by omega
      simp only [e1, e2, List.take_succ_cons, List.map_cons, List.sum_cons]
      congr 1
      funext a
      congr 1
      rw [add_comm (incf c) cum, ← add_assoc, add_comm (incf c), add_assoc, add_comm cum,
        ← add_assoc]

theorem batchKey_inv {A K : Type} [AddCommMonoid K] {key : String}
    {get : Cochain F L → Option (List A)} {shift : K → A → A} {inc : Cochain F L → Py K}
    {cs : List (Cochain F L)} {r : Option (List A)}
    (hkey : ∀ c : Cochain F L, key ∈ c.keys ↔ (get c).isSome)
    (h : batchKey key get shift inc 0 cs = .ok r) (incf : Cochain F L → K)
    (hinc : ∀ c k, inc c = .ok k → k = incf c) :
    r = unionOf get (fun i => shift ((cs.take i).map incf).sum) cs ∧
    ((∃ c ∈ cs, (get c).isSome) → ∀ c ∈ cs, inc c = .ok (incf c)) := by
  unfold batchKey at h
  have hmem : key ∈ unionKeys cs ↔ ∃ c ∈ cs, (get c).isSome := by
    unfold unionKeys
    rw [List.mem_flatMap]
    exact exists_congr fun c => and_congr Iff.rfl (hkey c)
  unfold unionOf
  by_cases hk : key ∈ unionKeys cs
  · rw [if_pos hk] at h
    rw [if_pos (hmem.mp hk)]
    obtain ⟨l, hl, h⟩ := map_eq_ok.mp h
    have hall : ∀ c ∈ cs, inc c = .ok (incf c) := by
      intro c hc
      obtain ⟨k, hk⟩ := shiftLoop_inv hl c hc
      rw [hk, hinc c k hk]
    rw [shiftLoop_ok hall] at hl
    injection hl with hl
    refine ⟨?_, fun _ => hall⟩
    rw [← h, ← hl, placedFrom_eq _ _ _ _ _ 0]
    simp
  · rw [if_neg hk] at h
    injection h with h
    rw [if_neg (fun h => hk (hmem.mpr h))]
    exact ⟨h.symm, fun h => absurd (hmem.mpr h) hk⟩

theorem batchKey_ok {A K : Type} [AddCommMonoid K] {key : String}
    {get : Cochain F L → Option (List A)} {shift : K → A → A} {inc : Cochain F L → Py K}
    {cs : List (Cochain F L)}
    (hkey : ∀ c : Cochain F L, key ∈ c.keys ↔ (get c).isSome) (incf : Cochain F L → K)
    (hall : ∀ c ∈ cs, inc c = .ok (incf c)) :
    batchKey key get shift inc 0 cs =
      .ok (unionOf get (fun i => shift ((cs.take i).map incf).sum) cs) := by
  unfold batchKey
  have hmem : key ∈ unionKeys cs ↔ ∃ c ∈ cs, (get c).isSome := by
    unfold unionKeys
    rw [List.mem_flatMap]
    exact exists_congr fun c => and_congr Iff.rfl (hkey c)
  unfold unionOf
  by_cases hk : key ∈ unionKeys cs
  · rw [if_pos hk, if_pos (hmem.mp hk), shiftLoop_ok hall, placedFrom_eq _ _ _ _ _ 0]
    simp
  · rw [if_neg hk, if_neg (fun h => hk (hmem.mpr h))]

section keys
variable (c : Cochain F L)
theorem mem_keys (k : String) : k ∈ c.keys ↔
    (k = "_Cochain__x" ∧ c.x.isSome) ∨ (k = "upper_index" ∧ c.upperIndex.isSome) ∨
    (k = "lower_index" ∧ c.lowerIndex.isSome) ∨ (k = "boundary_index" ∧ c.boundaryIndex.isSome) ∨
    (k = "y" ∧ c.y.isSome) ∨ (k = "shared_boundaries" ∧ c.sharedBoundaries.isSome) ∨
    (k = "shared_coboundaries" ∧ c.sharedCoboundaries.isSome) ∨
    (k = "upper_orient" ∧ c.upperOrient.isSome) ∨ (k = "lower_orient" ∧ c.lowerOrient.isSome) ∨
    (k = "mask" ∧ c.mask.isSome) ∨ (k = "batch" ∧ c.batch.isSome) ∨
    (k = "ptr" ∧ c.ptr.isSome) := by
  unfold Cochain.keys
  have key : ∀ (b : Bool) (s : String), k ∈ (if b = true then [s] else []) ↔ k = s ∧ b = true := by
    intro b s; cases b <;> simp
  simp only [List.mem_append, key, or_assoc]

theorem mem_keys_x : "_Cochain__x" ∈ c.keys ↔ c.x.isSome := by simp [mem_keys]
theorem mem_keys_upper : "upper_index" ∈ c.keys ↔ c.upperIndex.isSome := by simp [mem_keys]
theorem mem_keys_lower : "lower_index" ∈ c.keys ↔ c.lowerIndex.isSome := by simp [mem_keys]
theorem mem_keys_boundary : "boundary_index" ∈ c.keys ↔ c.boundaryIndex.isSome := by simp [mem_keys]
theorem mem_keys_y : "y" ∈ c.keys ↔ c.y.isSome := by simp [mem_keys]
theorem mem_keys_sb : "shared_boundaries" ∈ c.keys ↔ c.sharedBoundaries.isSome := by simp [mem_keys]
theorem mem_keys_sc : "shared_coboundaries" ∈ c.keys ↔ c.sharedCoboundaries.isSome := by
  simp [mem_keys]
theorem mem_keys_uo : "upper_orient" ∈ c.keys ↔ c.upperOrient.isSome := by simp [mem_keys]
theorem mem_keys_lo : "lower_orient" ∈ c.keys ↔ c.lowerOrient.isSome := by simp [mem_keys]
theorem mem_keys_mask : "mask" ∈ c.keys ↔ c.mask.isSome := by simp [mem_keys]
theorem mem_keys_batch : "batch" ∈ c.keys ↔ c.batch.isSome := by simp [mem_keys]
theorem mem_keys_ptr : "ptr" ∈ c.keys ↔ c.ptr.isSome := by simp [mem_keys]
theorem not_mem_keys_up : ¬ "num_cells_up" ∈ c.keys := by simp [mem_keys]
theorem not_mem_keys_down : ¬ "num_cells_down" ∈ c.keys := by simp [mem_keys]
end keys

theorem incIndex_eq {c : Cochain F L} {k : Nat} (h : c.incIndex = .ok k) : k = c.count := by
  unfold Cochain.incIndex at h
  obtain ⟨n, hn, h⟩ := bind_eq_ok.mp h
  unfold Cochain.count
  rw [hn]
  cases n <;> simp_all

theorem incSB_eq {c : Cochain F L} {k : Nat} (h : c.incSharedBoundaries = .ok k) :
    k = c.countDown := by
  unfold Cochain.incSharedBoundaries at h
  obtain ⟨n, hn, h⟩ := bind_eq_ok.mp h
  unfold Cochain.countDown
  rw [hn]
  cases n <;> simp_all

theorem incSC_eq {c : Cochain F L} {k : Nat} (h : c.incSharedCoboundaries = .ok k) :
    k = c.countUp := by
  unfold Cochain.incSharedCoboundaries at h
  obtain ⟨n, hn, h⟩ := bind_eq_ok.mp h
  unfold Cochain.countUp
  rw [hn]
  cases n <;> simp_all

theorem incBoundary_eq {c : Cochain F L} {k : Nat × Nat} (h : c.incBoundary = .ok k) :
    k = (c.countDown, c.count) := by
  unfold Cochain.incBoundary at h
  obtain ⟨m, hm, h⟩ := bind_eq_ok.mp h
  obtain ⟨n, hn, h⟩ := bind_eq_ok.mp h
  unfold Cochain.count Cochain.countDown
  rw [hn, hm]
  cases n <;> cases m <;> simp_all

theorem sum_pair {C : Type} (f g : C → Nat) (l : List C) :
    (l.map fun c => (f c, g c)).sum = ((l.map f).sum, (l.map g).sum) := by
  induction l with
  | nil => rfl
  | cons a l ih => simp [ih]

/-- What a successful batching tells, attribute by attribute. -/
structure BatchFacts (cs : List (Cochain F L)) (b : Cochain F L) : Prop where
  ne : cs ≠ []
  dim : ∀ c rest, cs = c :: rest → b.dim = c.dim
  noBatch : ∀ c ∈ cs, c.batch = none ∧ c.ptr = none
  x : b.x = unionOf Cochain.x (fun _ a => a) cs
  upper : b.upperIndex = unionOf Cochain.upperIndex (fun i => shiftPair (before Cochain.count cs i)) cs
  lower : b.lowerIndex = unionOf Cochain.lowerIndex (fun i => shiftPair (before Cochain.count cs i)) cs
  boundary : b.boundaryIndex = unionOf Cochain.boundaryIndex
    (fun i => shiftPair2 (before Cochain.countDown cs i, before Cochain.count cs i)) cs
  sb : b.sharedBoundaries = unionOf Cochain.sharedBoundaries
    (fun i a => a + before Cochain.countDown cs i) cs
  sc : b.sharedCoboundaries = unionOf Cochain.sharedCoboundaries
    (fun i a => a + before Cochain.countUp cs i) cs
  y : b.y = unionOf Cochain.y (fun _ a => a) cs
  upperOrient : b.upperOrient = unionOf Cochain.upperOrient (fun _ a => a) cs
  lowerOrient : b.lowerOrient = unionOf Cochain.lowerOrient (fun _ a => a) cs
  mask : b.mask = unionOf Cochain.mask (fun _ a => a) cs
  segs : ∃ r, batchLoop 0 0 cs = .ok r ∧
    b.batch = (if r.1.isEmpty then none else some r.1.flatten) ∧
    b.ptr = (if r.2.isEmpty then none else some (0 :: r.2))
  explicit : b.numCellsAttr = none ∧ b.numCellsUpAttr = none ∧ b.numCellsDownAttr = none
  upperCounts : (∃ c ∈ cs, c.upperIndex.isSome) → ∀ c ∈ cs, c.incIndex = .ok c.count
  lowerCounts : (∃ c ∈ cs, c.lowerIndex.isSome) → ∀ c ∈ cs, c.incIndex = .ok c.count

theorem incZero_eq {c : Cochain F L} {k : Nat} (h : incZero c = .ok k) : k = 0 := by
  unfold incZero at h; injection h with h; exact h.symm

theorem noShift_eq {A : Type} (cs : List (Cochain F L)) (get : Cochain F L → Option (List A)) :
    unionOf get (fun i => noShift ((cs.take i).map fun _ => 0).sum) cs =
      unionOf get (fun _ a => a) cs := rfl

theorem fromCochainList_inv {cs : List (Cochain F L)} {b : Cochain F L}
    (h : fromCochainList cs = .ok b) : BatchFacts cs b := by
  cases cs with
  | nil => simp [fromCochainList] at h
  | cons c0 rest =>
    unfold fromCochainList at h
    dsimp only at h
    generalize hcs : c0 :: rest = cs at h ⊢
    obtain ⟨_, hnb, h⟩ := bind_eq_ok.mp h
    obtain ⟨x, hx, h⟩ := bind_eq_ok.mp h
    obtain ⟨ui, hui, h⟩ := bind_eq_ok.mp h
    obtain ⟨li, hli, h⟩ := bind_eq_ok.mp h
    obtain ⟨bi, hbi, h⟩ := bind_eq_ok.mp h
    obtain ⟨sb, hsb, h⟩ := bind_eq_ok.mp h
    obtain ⟨sc, hsc, h⟩ := bind_eq_ok.mp h
    obtain ⟨y, hy, h⟩ := bind_eq_ok.mp h
    obtain ⟨uo, huo, h⟩ := bind_eq_ok.mp h
    obtain ⟨lo, hlo, h⟩ := bind_eq_ok.mp h
    obtain ⟨mask, hmask, h⟩ := bind_eq_ok.mp h
    obtain ⟨bt, hbt, h⟩ := bind_eq_ok.mp h
    injection h with h
    have hx := batchKey_inv mem_keys_x hx (fun _ => 0) (fun _ _ => incZero_eq)
    have hy := batchKey_inv mem_keys_y hy (fun _ => 0) (fun _ _ => incZero_eq)
    have huo := batchKey_inv mem_keys_uo huo (fun _ => 0) (fun _ _ => incZero_eq)
    have hlo := batchKey_inv mem_keys_lo hlo (fun _ => 0) (fun _ _ => incZero_eq)
    have hmask := batchKey_inv mem_keys_mask hmask (fun _ => 0) (fun _ _ => incZero_eq)
    have hui := batchKey_inv mem_keys_upper hui Cochain.count (fun _ _ => incIndex_eq)
    have hli := batchKey_inv mem_keys_lower hli Cochain.count (fun _ _ => incIndex_eq)
    have hsb := batchKey_inv mem_keys_sb hsb Cochain.countDown (fun _ _ => incSB_eq)
    have hsc := batchKey_inv mem_keys_sc hsc Cochain.countUp (fun _ _ => incSC_eq)
    have hbi := batchKey_inv mem_keys_boundary hbi (fun c => (c.countDown, c.count))
      (fun _ _ => incBoundary_eq)
    simp only [sum_pair] at hbi
    subst h
    refine ⟨?_, ?_, ?_, hx.1, hui.1, hli.1, hbi.1, hsb.1, hsc.1, hy.1, huo.1, hlo.1, hmask.1,
      ⟨bt, hbt, rfl, rfl⟩, ⟨rfl, rfl, rfl⟩, hui.2, hli.2⟩
    · rw [← hcs]; simp
    · intro c r hcr; rw [← hcs] at hcr; cases hcr; rfl
    · intro c hc
      rw [pyAssert_eq_ok, Bool.and_eq_true] at hnb
      simp only [Bool.not_eq_true', decide_eq_false_iff_not, unionKeys, List.mem_flatMap,
        not_exists, not_and] at hnb
      constructor
      · have := hnb.1 c hc
        rw [mem_keys_batch] at this
        simpa using this
      · have := hnb.2 c hc
        rw [mem_keys_ptr] at this
        simpa using this


theorem fromCochainList_ok {cs : List (Cochain F L)} (hne : cs ≠ [])
    (hb : ∀ c ∈ cs, c.batch = none ∧ c.ptr = none)
    (hn : ∀ c ∈ cs, ∃ n, c.numCells = .ok n)
    (hd : ∀ c ∈ cs, ∃ n, c.numCellsDown = .ok n)
    (hu : ∀ c ∈ cs, ∃ n, c.numCellsUp = .ok n) :
    ∃ b, fromCochainList cs = .ok b := by
  have hidx : ∀ c ∈ cs, c.incIndex = .ok c.count := by
    intro c hc
    obtain ⟨n, h⟩ := hn c hc
    have : c.incIndex = .ok (n.getD 0) := by unfold Cochain.incIndex; rw [h]; rfl
    rw [this, incIndex_eq this]
  have hsb : ∀ c ∈ cs, c.incSharedBoundaries = .ok c.countDown := by
    intro c hc
    obtain ⟨n, h⟩ := hd c hc
    have : c.incSharedBoundaries = .ok (n.getD 0) := by
      unfold Cochain.incSharedBoundaries; rw [h]; rfl
    rw [this, incSB_eq this]
  have hsc : ∀ c ∈ cs, c.incSharedCoboundaries = .ok c.countUp := by
    intro c hc
    obtain ⟨n, h⟩ := hu c hc
    have : c.incSharedCoboundaries = .ok (n.getD 0) := by
      unfold Cochain.incSharedCoboundaries; rw [h]; rfl
    rw [this, incSC_eq this]
  have hbi : ∀ c ∈ cs, c.incBoundary = .ok (c.countDown, c.count) := by
    intro c hc
    obtain ⟨n, h⟩ := hn c hc
    obtain ⟨m, h'⟩ := hd c hc
    have : c.incBoundary = .ok (m.getD 0, n.getD 0) := by
      unfold Cochain.incBoundary; rw [h, h']; rfl
    rw [this, incBoundary_eq this]
  have hbl : ∀ i l, ∃ r, batchLoop i l cs = .ok r := by
    clear hidx hsb hsc hbi hd hu hb hne
    induction cs with
    | nil => intro i l; exact ⟨_, rfl⟩
    | cons c cs ih =>
      intro i l
      obtain ⟨n, h⟩ := hn c (by simp)
      unfold batchLoop
      rw [h, ok_bind]
      cases n with
      | none => exact ih (fun c hc => hn c (by simp [hc])) _ _
      | some n =>
        obtain ⟨r, hr⟩ := ih (fun c hc => hn c (by simp [hc])) (i + 1) (l + n)
        dsimp only
        rw [hr]
        exact ⟨_, rfl⟩
  have hnb : pyAssert (!decide ("batch" ∈ unionKeys cs) && !decide ("ptr" ∈ unionKeys cs)) =
      .ok () := by
    rw [pyAssert_eq_ok, Bool.and_eq_true]
    simp only [Bool.not_eq_true', decide_eq_false_iff_not, unionKeys, List.mem_flatMap,
      not_exists, not_and]
    constructor
    · intro c hc
      rw [mem_keys_batch, (hb c hc).1]; simp
    · intro c hc
      rw [mem_keys_ptr, (hb c hc).2]; simp
  cases cs with
  | nil => exact absurd rfl hne
  | cons c0 rest =>
    unfold fromCochainList
    dsimp only
    generalize hcs : c0 :: rest = cs at *
    obtain ⟨r, hr⟩ := hbl 0 0
    rw [hnb, ok_bind, batchKey_ok (inc := incZero) mem_keys_x (fun _ => 0) (fun _ _ => rfl), ok_bind,
      batchKey_ok mem_keys_upper Cochain.count hidx, ok_bind,
      batchKey_ok mem_keys_lower Cochain.count hidx, ok_bind,
      show ((0, 0) : Nat × Nat) = 0 from rfl,
      batchKey_ok mem_keys_boundary (fun c => (c.countDown, c.count)) hbi, ok_bind,
      batchKey_ok mem_keys_sb Cochain.countDown hsb, ok_bind,
      batchKey_ok mem_keys_sc Cochain.countUp hsc, ok_bind,
      batchKey_ok (inc := incZero) mem_keys_y (fun _ => 0) (fun _ _ => rfl), ok_bind,
      batchKey_ok (inc := incZero) mem_keys_uo (fun _ => 0) (fun _ _ => rfl), ok_bind,
      batchKey_ok (inc := incZero) mem_keys_lo (fun _ => 0) (fun _ _ => rfl), ok_bind,
      batchKey_ok (inc := incZero) mem_keys_mask (fun _ => 0) (fun _ _ => rfl), ok_bind, hr, ok_bind]
    exact ⟨_, rfl⟩

theorem count_of {c : Cochain F L} {n : Nat} (h : c.numCells = .ok (some n)) : c.count = n := by
  unfold Cochain.count; rw [h]

theorem before_succ {C : Type} (f : C → Nat) (c : C) (cs : List C) (i : Nat) :
    before f (c :: cs) (i + 1) = f c + before f cs i := by
  simp [before]

theorem before_zero {C : Type} (f : C → Nat) (cs : List C) : before f cs 0 = 0 := by
  simp [before]

theorem batchLoop_known {cs : List (Cochain F L)} (h : ∀ c ∈ cs, c.numCells = .ok (some c.count))
    (i l : Nat) :
    batchLoop i l cs = .ok ((cs.zipIdx i).map (fun ci => List.replicate ci.1.count ci.2),
      (List.range cs.length).map (fun j => l + before Cochain.count cs (j + 1))) := by
  induction cs generalizing i l with
  | nil => rfl
  | cons c cs ih =>
    unfold batchLoop
    rw [h c (by simp), ok_bind]
    dsimp only
    rw [ih (fun c hc => h c (by simp [hc]))]
    simp only [ok_bind, List.zipIdx_cons, List.map_cons, List.length_cons, pure_eq_ok, ok_inj,
      Prod.mk.injEq, true_and]
    rw [List.range_succ_eq_map, List.map_cons, List.map_map]
    simp only [before_succ, before_zero, Nat.add_zero, List.cons.injEq, true_and]
    apply List.map_congr_left
    intro j _
    simp only [Function.comp, Nat.succ_eq_add_one]
    omega

/-- The segments of the batch vector, whether or not the counts are known. -/
theorem batchLoop_flatten {cs : List (Cochain F L)} {i l : Nat} {r : List (List Nat) × List Nat}
    (h : batchLoop i l cs = .ok r) :
    r.1.flatten = (cs.zipIdx i).flatMap (fun ci => List.replicate ci.1.count ci.2) := by
  induction cs generalizing i l r with
  | nil => cases h; rfl
  | cons c cs ih =>
    unfold batchLoop at h
    obtain ⟨n, hn, h⟩ := bind_eq_ok.mp h
    cases n with
    | none =>
      rw [List.zipIdx_cons, List.flatMap_cons, ih h]
      simp [Cochain.count, hn]
    | some n =>
      obtain ⟨r', hr', h⟩ := bind_eq_ok.mp h
      cases h
      rw [List.zipIdx_cons, List.flatMap_cons, List.flatten_cons, ih hr', count_of hn]

/-- Positions in a concatenation of replicated item numbers. -/
theorem getElem?_replicates {C : Type} (f : C → Nat) (cs : List C) (s r i : Nat) :
    ((cs.zipIdx s).flatMap (fun ci => List.replicate (f ci.1) ci.2))[r]? = some i ↔
      s ≤ i ∧ i < s + cs.length ∧ before f cs (i - s) ≤ r ∧ r < before f cs (i - s + 1) := by
  induction cs generalizing s r with
  | nil => simp; omega
  | cons c cs ih =>
    rw [List.zipIdx_cons, List.flatMap_cons, List.getElem?_append]
    simp only [List.length_replicate, List.length_cons]
    split
    · rename_i hr
      rw [List.getElem?_replicate, if_pos hr]
      constructor
      · intro h
        injection h with h
        subst h
        simp only [Nat.sub_self, before_zero, before_succ]
        omega
      · rintro ⟨h1, h2, h3, h4⟩
        congr 1
        by_contra hne
        obtain ⟨k, rfl⟩ : ∃ k, i = s + (k + 1) := ⟨i - s - 1, by omega⟩
        rw [show s + (k + 1) - s = k + 1 by omega, before_succ] at h3
        omega
    · rename_i hr
      rw [ih]
      constructor
      · rintro ⟨h1, h2, h3, h4⟩
        obtain ⟨k, rfl⟩ : ∃ k, i = s + (k + 1) := ⟨i - s - 1, by omega⟩
        rw [show s + (k + 1) - s = k + 1 by omega, before_succ, before_succ]
        rw [show s + (k + 1) - (s + 1) = k by omega] at h3 h4
        omega
      · rintro ⟨h1, h2, h3, h4⟩
        have hi : s < i := by
          by_contra hne
          have : i = s := by omega
          subst this
          rw [Nat.sub_self, before_succ, before_zero] at h4
          omega
        obtain ⟨k, rfl⟩ : ∃ k, i = s + (k + 1) := ⟨i - s - 1, by omega⟩
        rw [show s + (k + 1) - s = k + 1 by omega, before_succ] at h3
        rw [show s + (k + 1) - s = k + 1 by omega, before_succ] at h4
        rw [show s + (k + 1) - (s + 1) = k by omega]
        omega

theorem unionOf_some_of {C A : Type} {get : C → Option (List A)} {place : Nat → A → A}
    {cs : List C} (h : ∃ c ∈ cs, (get c).isSome) :
    unionOf get place cs =
      some (cs.zipIdx.flatMap fun ci => ((get ci.1).getD []).map (place ci.2)) := by
  unfold unionOf; rw [if_pos h]

theorem maxPlusOne_eq_ok {l : List Nat} {n : Nat} :
    Cochain.maxPlusOne l = .ok n ↔ ∃ m ∈ l, n = m + 1 ∧ ∀ a ∈ l, a ≤ m := by
  unfold Cochain.maxPlusOne
  cases hm : l.max? with
  | none =>
    rw [List.max?_eq_none_iff] at hm
    subst hm
    simp
  | some m =>
    rw [List.max?_eq_some_iff] at hm
    simp only [Except.ok.injEq]
    constructor
    · intro h; exact ⟨m, hm.1, h.symm, hm.2⟩
    · rintro ⟨m', h1, h2, h3⟩
      have := hm.2 m' h1
      have := h3 m hm.1
      omega

theorem mem_shifted_snd {cs : List (Cochain F L)} {s a : Nat} {g : Nat → Nat × Nat} :
    a ∈ ((cs.zipIdx s).flatMap fun ci => (ci.1.boundaryIndex.getD []).map
        (shiftPair2 (g ci.2))).map Prod.snd ↔
      ∃ (c : Cochain F L) (i : Nat) (p : Nat × Nat), (c, i) ∈ cs.zipIdx s ∧
        p ∈ c.boundaryIndex.getD [] ∧ a = p.2 + (g i).2 := by
  simp only [List.mem_map, List.mem_flatMap, Prod.exists, shiftPair2]
  constructor
  · rintro ⟨u, v, ⟨c, i, hc, p1, p2, hp, he⟩, hv⟩
    refine ⟨c, i, p1, p2, hc, hp, ?_⟩
    have := congrArg Prod.snd he
    simp at this hv
    omega
  · rintro ⟨c, i, p1, p2, hc, hp, he⟩
    exact ⟨_, _, ⟨c, i, hc, p1, p2, hp, rfl⟩, he.symm⟩

theorem before_le {C : Type} (f : C → Nat) (cs : List C) {i j : Nat} (h : i ≤ j) :
    before f cs i ≤ before f cs j := by
  obtain ⟨k, rfl⟩ := Nat.exists_eq_add_of_le h
  unfold before
  rw [List.take_add, List.map_append, List.sum_append]
  omega

theorem before_full {C : Type} (f : C → Nat) (cs : List C) {i : Nat} (h : cs.length ≤ i) :
    before f cs i = (cs.map f).sum := by
  unfold before; rw [List.take_of_length_le h]

theorem before_succ_getElem {C : Type} (f : C → Nat) (cs : List C) {i : Nat} {c : C}
    (h : cs[i]? = some c) : before f cs (i + 1) = before f cs i + f c := by
  unfold before
  rw [List.take_add_one, h]
  simp

theorem down_known {cs : List (Cochain F L)} {b : Cochain F L} (h : fromCochainList cs = .ok b)
    (hd : ∃ c ∈ cs, c.boundaryIndex.isSome ∨ c.sharedBoundaries.isSome) :
    ∀ c ∈ cs, ∃ n, c.numCellsDown = .ok n := by
  cases cs with
  | nil => simp [fromCochainList] at h
  | cons c0 rest =>
    unfold fromCochainList at h
    dsimp only at h
    generalize hcs : c0 :: rest = cs at h hd ⊢
    obtain ⟨_, -, h⟩ := bind_eq_ok.mp h
    obtain ⟨x, -, h⟩ := bind_eq_ok.mp h
    obtain ⟨ui, -, h⟩ := bind_eq_ok.mp h
    obtain ⟨li, -, h⟩ := bind_eq_ok.mp h
    obtain ⟨bi, hbi, h⟩ := bind_eq_ok.mp h
    obtain ⟨sb, hsb, h⟩ := bind_eq_ok.mp h
    have hsb := (batchKey_inv mem_keys_sb hsb Cochain.countDown (fun _ _ => incSB_eq)).2
    have hbi := (batchKey_inv mem_keys_boundary hbi (fun c => (c.countDown, c.count))
      (fun _ _ => incBoundary_eq)).2
    intro c hc
    obtain ⟨d, hd, hs | hs⟩ := hd
    · have := hbi ⟨d, hd, hs⟩ c hc
      unfold Cochain.incBoundary at this
      obtain ⟨n, hn, -⟩ := bind_eq_ok.mp this
      exact ⟨n, hn⟩
    · have := hsb ⟨d, hd, hs⟩ c hc
      unfold Cochain.incSharedBoundaries at this
      obtain ⟨n, hn, -⟩ := bind_eq_ok.mp this
      exact ⟨n, hn⟩

end Verif
