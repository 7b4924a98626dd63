import Verif.Model.BatchCount
import Verif.Props.Batching
import Verif.Props.ComplexBatching

/-!
# C127: The number of cochains of a batch
-/

namespace Verif

variable {F L : Type}

/-- The item knows its number of cells. -/
def KnowsCells (c : Cochain F L) : Bool :=
  match c.numCells with
  | .ok (some _) => true
  | _ => false

theorem batchLoop_length : ∀ {i last : Nat} {cs : List (Cochain F L)} {r : List (List Nat) × List Nat},
    batchLoop i last cs = .ok r → r.2.length = (cs.filter KnowsCells).length := by
  intro i last cs
  induction cs generalizing i last with
  | nil =>
    intro r h
    rw [batchLoop, ok_inj] at h
    subst h
    rfl
  | cons c cs ih =>
    intro r h
    rw [batchLoop] at h
    obtain ⟨n, hn, h⟩ := bind_eq_ok.mp h
    cases n with
    | none =>
      rw [ih h, List.filter_cons_of_neg]
      simp [KnowsCells, hn]
    | some n =>
      obtain ⟨r', hr, h⟩ := bind_eq_ok.mp h
      rw [pure_eq_ok, ok_inj] at h
      subst h
      rw [List.filter_cons_of_pos (by simp [KnowsCells, hn])]
      simp [ih hr]

theorem fromCochainList_ptr {cs : List (Cochain F L)} {b : Cochain F L} (h : fromCochainList cs = .ok b) :
    b.ptr.map List.length =
      if (cs.filter KnowsCells).length = 0 then none else some ((cs.filter KnowsCells).length + 1) := by
  cases cs with
  | nil => cases h
  | cons c0 cs =>
    unfold fromCochainList at h
    obtain ⟨u, -, h⟩ := bind_eq_ok.mp h
    iterate 10 obtain ⟨_, -, h⟩ := bind_eq_ok.mp h
    obtain ⟨r, hr, h⟩ := bind_eq_ok.mp h
    rw [pure_eq_ok, ok_inj] at h
    subst h
    have e := batchLoop_length hr
    rw [← e]
    show (if r.2.isEmpty then none else some (0 :: r.2)).map List.length = _
    cases r.2 with
    | nil => rfl
    | cons p ps => simp

/-- **C127** A batch made from a list says how many cochains it was made from. -/
theorem C127_recorded (cs : List (Cochain F L)) (b : CochainBatch F L) (h : CochainBatch.fromList cs = .ok b) :
    fromCochainList cs = .ok b.data ∧ b.numCochains = .ok cs.length := by
  obtain ⟨d, hd, h⟩ := bind_eq_ok.mp h
  rw [pure_eq_ok, ok_inj] at h
  subst h
  exact ⟨hd, rfl⟩

/-- **C127** Every row of the batch belongs to a cochain with a smaller number than that, and the pointers are one more. -/
theorem C127_rows (cs : List (Cochain F L)) (b : CochainBatch F L) (h : CochainBatch.fromList cs = .ok b)
    (hk : ∀ c ∈ cs, ∃ n, c.numCells = .ok (some n)) :
    ∃ v ptr n, b.data.batch = some v ∧ b.data.ptr = some ptr ∧ b.numCochains = .ok n ∧ ptr.length = n + 1 ∧ ∀ i ∈ v, i < n := by
  obtain ⟨hd, hn⟩ := C127_recorded cs b h
  obtain ⟨v, ptr, hv, hp, hl, -, -, hr⟩ := C03_row_membership cs b.data hd hk
  refine ⟨v, ptr, cs.length, hv, hp, hn, hl, ?_⟩
  intro i hi
  obtain ⟨r, hri⟩ := List.getElem?_of_mem hi
  obtain ⟨lo, hi', -, h2, -, -⟩ := (hr r i).mp hri
  have := (List.getElem?_eq_some_iff.mp h2).1
  omega

/-- **C127** Without the recorded number, two more are reported than there are items with a known number of cells, and an
exception is raised if there are none. -/
theorem C127_without_record (cs : List (Cochain F L)) (b : CochainBatch F L) (h : CochainBatch.fromList cs = .ok b) :
    ({ b with recorded := none } : CochainBatch F L).numCochains =
      if (cs.filter KnowsCells).length = 0 then .error .attribute else .ok ((cs.filter KnowsCells).length + 2) := by
  have e := fromCochainList_ptr (C127_recorded cs b h).1
  unfold CochainBatch.numCochains
  show (match b.data.ptr with | some ptr => _ | none => _) = _
  revert e
  cases b.data.ptr with
  | none =>
    intro e
    split at e
    · rename_i h0
      rw [if_pos h0]
    · cases e
  | some ptr =>
    intro e
    split at e
    · cases e
    · rename_i h0
      rw [if_neg h0]
      simp only [Option.map_some, Option.some.injEq] at e
      simp [e]

/-- **C127** If all items know their number of cells, the number reported without the record is never right. -/
theorem C127_never_right (cs : List (Cochain F L)) (b : CochainBatch F L) (h : CochainBatch.fromList cs = .ok b)
    (hk : ∀ c ∈ cs, ∃ n, c.numCells = .ok (some n)) :
    ({ b with recorded := none } : CochainBatch F L).numCochains = .ok (cs.length + 2) := by
  have e : cs.filter KnowsCells = cs := by
    rw [List.filter_eq_self]
    intro c hc
    obtain ⟨n, hn⟩ := hk c hc
    simp [KnowsCells, hn]
  have hne : cs ≠ [] := by
    rintro rfl
    cases (C127_recorded [] b h).1
  rw [C127_without_record cs b h, e, if_neg (by simpa using hne)]

/-- **C127** Every dimension of a batch of complexes has as many cochains as there are complexes. -/
theorem C127_complexes (cs : List (Complex F L)) (maxDim : Nat) (comp : Complex F L)
    (h : fromComplexList cs maxDim = .ok comp) :
    ∃ bs : List (CochainBatch F L), batchedCochains cs maxDim = .ok bs ∧ bs.length = comp.cochains.length ∧
      (∀ (d : Nat) c, comp.cochains[d]? = some c → ∃ (b : CochainBatch F L) (u l : Option (Option Nat)), bs[d]? = some b ∧
        c = { b.data with numCellsUpAttr := u, numCellsDownAttr := l }) ∧
      comp.numComplexes = some cs.length ∧ ∀ b ∈ bs, b.numCochains = .ok cs.length := by
  unfold fromComplexList at h
  unfold batchedCochains
  cases hm : (cs.map Complex.dimension).max? with
  | none => rw [hm] at h; cases h
  | some m =>
    rw [hm] at h
    dsimp only at h ⊢
    obtain ⟨cochains, h1, h⟩ := bind_eq_ok.mp h
    obtain ⟨batched, h2, h⟩ := bind_eq_ok.mp h
    rw [h1, ok_bind]
    have f1 := mapE_eq_ok_iff.mp h1
    have f2 := mapE_eq_ok_iff.mp h2
    have hall : ∀ l ∈ cochains, l.length = cs.length := by
      intro l hl
      obtain ⟨i, hi⟩ := List.getElem?_of_mem hl
      obtain ⟨h1, h2⟩ := List.getElem?_eq_some_iff.mp hi
      have hd := (List.forall₂_iff_get.mp f1).2 i (by rw [f1.length_eq]; exact h1) h1
      simp only [List.get_eq_getElem, h2] at hd
      exact (mapE_eq_ok_iff.mp hd).length_eq.symm
    unfold ComplexBatch.new at h
    obtain ⟨c, hc, h⟩ := bind_eq_ok.mp h
    rw [pure_eq_ok, ok_inj] at h
    subst h
    obtain ⟨-, -, hget⟩ := new_coherent hc
    have hlen : c.cochains.length = batched.length := by
      obtain ⟨hne, -, -, -, rfl⟩ := complexNew_eq_ok.mp hc
      have : 0 < batched.length := List.length_pos_iff.mpr hne
      simp [consolidated_length]
      omega
    refine ⟨batched.map fun b => ⟨b, some cs.length⟩, ?_, by simp [hlen], ?_, rfl, ?_⟩
    · rw [mapE_eq_ok_iff]
      clear * - f2 hall
      induction f2 with
      | nil => exact .nil
      | @cons l b ls bs e _ ih =>
        refine .cons ?_ (ih fun l' hl' => hall l' (List.mem_cons_of_mem _ hl'))
        unfold CochainBatch.fromList
        rw [e, ok_bind, hall l (by simp)]
        rfl
    · intro d c' hc'
      obtain ⟨c0, u, l, h0, e, -, -⟩ := hget d c' hc'
      exact ⟨⟨c0, some cs.length⟩, u, l, by simp [h0], e⟩
    · intro b hb
      obtain ⟨d, -, rfl⟩ := List.mem_map.mp hb
      rfl

/-- **C127** No complexes, no batches. -/
theorem C127_no_complexes (maxDim : Nat) :
    batchedCochains ([] : List (Complex F L)) maxDim = .error .value ∧
      fromComplexList ([] : List (Complex F L)) maxDim = .error .value := ⟨rfl, rfl⟩

/-- Three cochains are counted, and five are reported without the record. -/
example : (CochainBatch.fromList [Fixtures.segV, Fixtures.dotsV, Fixtures.segV] >>= CochainBatch.numCochains) = .ok 3 ∧
    (CochainBatch.fromList [Fixtures.segV, Fixtures.dotsV, Fixtures.segV] >>= fun b =>
      CochainBatch.numCochains { b with recorded := none }) = .ok 5 ∧
    (∀ c ∈ [Fixtures.segV, Fixtures.dotsV, Fixtures.segV], ∃ n, c.numCells = .ok (some n)) := by
  refine ⟨by decide, by decide, ?_⟩
  intro c hc
  simp only [List.mem_cons, List.not_mem_nil, or_false] at hc
  rcases hc with rfl | rfl | rfl
  · exact ⟨3, by decide⟩
  · exact ⟨2, by decide⟩
  · exact ⟨3, by decide⟩

/-- Three complexes of different dimensions: all three dimensions of the batch have three cochains. -/
example : (batchedCochains [Fixtures.dots, Fixtures.house, Fixtures.seg] 2 >>= mapE CochainBatch.numCochains) = .ok [3, 3, 3] ∧
    (fromComplexList [Fixtures.dots, Fixtures.house, Fixtures.seg] 2).toOption.isSome := by decide

end Verif
