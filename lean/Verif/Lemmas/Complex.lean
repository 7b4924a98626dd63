import Verif.Spec.Complex
import Verif.Lemmas.Batch

/-!
# Lemmas on construction of complexes
-/

namespace Verif

variable {F L : Type}

theorem not_contains_up (c : Cochain F L) : c.contains "num_cells_up" = false := by
  unfold Cochain.contains; rw [decide_eq_false]; exact not_mem_keys_up c

theorem not_contains_down (c : Cochain F L) : c.contains "num_cells_down" = false := by
  unfold Cochain.contains; rw [decide_eq_false]; exact not_mem_keys_down c

/-- What a neighbour contributes to the recorded count. -/
def recorded (nb : Option (Cochain F L)) (old : Option (Option Nat)) : Option (Option Nat) :=
  match nb with
  | none => old
  | some c => some (some c.count)

theorem consolidateUp_eq_ok {c c' : Cochain F L} {nb : Option (Cochain F L)} :
    consolidateUp c nb = .ok c' ↔
      (∀ u, nb = some u → ∃ n, u.numCells = .ok (some n)) ∧
      c' = { c with numCellsUpAttr := recorded nb c.numCellsUpAttr } := by
  cases nb with
  | none =>
    simp only [consolidateUp, ok_inj, recorded]
    constructor
    · rintro rfl; simp
    · rintro ⟨_, rfl⟩; rfl
  | some u =>
    simp only [consolidateUp, recorded, not_contains_up]
    constructor
    · intro h
      obtain ⟨n, hn, h⟩ := bind_eq_ok.mp h
      obtain ⟨_, ha, h⟩ := bind_eq_ok.mp h
      rw [pyAssert_eq_ok] at ha
      obtain ⟨n, rfl⟩ := Option.isSome_iff_exists.mp ha
      simp at h
      refine ⟨fun u' hu => ⟨n, by cases hu; exact hn⟩, ?_⟩
      rw [← h, count_of hn]
    · rintro ⟨h, rfl⟩
      obtain ⟨n, hn⟩ := h u rfl
      simp [hn, count_of hn]

theorem consolidateDown_eq_ok {c c' : Cochain F L} {nb : Option (Cochain F L)} :
    consolidateDown c nb = .ok c' ↔
      (∀ u, nb = some u → ∃ n, u.numCells = .ok (some n)) ∧
      c' = { c with numCellsDownAttr := recorded nb c.numCellsDownAttr } := by
  cases nb with
  | none =>
    simp only [consolidateDown, ok_inj, recorded]
    constructor
    · rintro rfl; simp
    · rintro ⟨_, rfl⟩; rfl
  | some u =>
    simp only [consolidateDown, recorded, not_contains_down]
    constructor
    · intro h
      obtain ⟨n, hn, h⟩ := bind_eq_ok.mp h
      obtain ⟨_, ha, h⟩ := bind_eq_ok.mp h
      rw [pyAssert_eq_ok] at ha
      obtain ⟨n, rfl⟩ := Option.isSome_iff_exists.mp ha
      simp at h
      refine ⟨fun u' hu => ⟨n, by cases hu; exact hn⟩, ?_⟩
      rw [← h, count_of hn]
    · rintro ⟨h, rfl⟩
      obtain ⟨n, hn⟩ := h u rfl
      simp [hn, count_of hn]

/-- The result of consolidation, cochain by cochain. -/
def consolidated (lower : Option (Cochain F L)) : List (Cochain F L) → List (Cochain F L)
  | [] => []
  | c :: rest =>
    { c with numCellsUpAttr := recorded rest.head? c.numCellsUpAttr,
             numCellsDownAttr := recorded lower c.numCellsDownAttr } :: consolidated (some c) rest

/-- The same cochain up to the two recorded counts. -/
def SameBut (c c' : Cochain F L) : Prop :=
  ∃ u d, c' = { c with numCellsUpAttr := u, numCellsDownAttr := d }

theorem numCells_sameBut {c : Cochain F L} {u d : Option (Option Nat)} :
    ({ c with numCellsUpAttr := u, numCellsDownAttr := d } : Cochain F L).numCells = c.numCells :=
  rfl

theorem recorded_congr {c c' : Cochain F L} (h : c.numCells = c'.numCells)
    (old : Option (Option Nat)) : recorded (some c) old = recorded (some c') old := by
  simp [recorded, Cochain.count, h]

theorem consolidated_congr {c c' : Cochain F L} (h : c.numCells = c'.numCells)
    (cs : List (Cochain F L)) : consolidated (some c) cs = consolidated (some c') cs := by
  cases cs with
  | nil => rfl
  | cons d cs => simp only [consolidated, recorded_congr h]

theorem consolidateFrom_eq_ok {dim : Nat} {lower : Option (Cochain F L)}
    {cs out : List (Cochain F L)} :
    consolidateFrom dim lower cs = .ok out ↔
      (∀ i c, cs[i]? = some c → c.dim = dim + i) ∧
      (∀ l, cs ≠ [] → lower = some l → ∃ n, l.numCells = .ok (some n)) ∧
      ((lower ≠ none ∨ 2 ≤ cs.length) → ∀ c ∈ cs, cs.length ≥ 2 → ∃ n, c.numCells = .ok (some n)) ∧
      out = consolidated lower cs := by
  induction cs generalizing dim lower out with
  | nil => simp [consolidateFrom, consolidated, eq_comm]
  | cons c rest ih =>
    unfold consolidateFrom
    constructor
    · intro h
      obtain ⟨_, ha, h⟩ := bind_eq_ok.mp h
      obtain ⟨c1, h1, h⟩ := bind_eq_ok.mp h
      obtain ⟨c2, h2, h⟩ := bind_eq_ok.mp h
      obtain ⟨rest', hr, h⟩ := bind_eq_ok.mp h
      cases h
      rw [pyAssert_eq_ok] at ha
      rw [consolidateUp_eq_ok] at h1
      rw [consolidateDown_eq_ok] at h2
      rw [ih] at hr
      obtain ⟨hup, rfl⟩ := h1
      obtain ⟨hdown, rfl⟩ := h2
      obtain ⟨hd, hl, hk, rfl⟩ := hr
      refine ⟨?_, fun l _ hl => hdown l hl, ?_, ?_⟩
      · intro i d hi
        cases i with
        | zero => simp at hi; subst hi; simpa using ha
        | succ i => have := hd i d (by simpa using hi); omega
      · intro _ d hdm h2
        cases rest with
        | nil => simp at h2
        | cons e rest =>
          rcases List.mem_cons.mp hdm with rfl | hdm
          · have hh := hl _ (by simp) rfl
            exact hh
          · rcases List.mem_cons.mp hdm with rfl | hdm'
            · exact hup _ rfl
            · refine hk (Or.inl (by simp)) d hdm ?_
              have : rest ≠ [] := fun h => by subst h; simp at hdm'
              have := List.length_pos_iff.mpr this
              simp only [List.length_cons]; omega
      · simp only [consolidated]
        congr 1
        refine consolidated_congr ?_ rest; rfl
    · rintro ⟨hd, hl, hk, rfl⟩
      have hdim : c.dim = dim := by simpa using hd 0 c rfl
      rw [show (c.dim == dim) = true by simp [hdim], pyAssert_true, ok_bind]
      rw [(consolidateUp_eq_ok (nb := rest.head?)).mpr ⟨?_, rfl⟩, ok_bind]
      · rw [(consolidateDown_eq_ok (nb := lower)).mpr ⟨fun l h => hl l (by simp) h, rfl⟩, ok_bind]
        rw [ih.mpr ⟨?_, ?_, ?_, rfl⟩, ok_bind]
        · simp only [consolidated, pure_eq_ok, ok_inj]
          congr 1
          refine consolidated_congr ?_ rest; rfl
        · intro i d hi
          have := hd (i + 1) d (by simpa using hi)
          omega
        · intro l hne hl'
          cases hl'
          have : rest.length ≥ 1 := List.length_pos_iff.mpr hne
          exact hk (Or.inr (by simp; omega)) c (by simp) (by simp; omega)
        · intro _ d hdm h2
          exact hk (Or.inr (by simp; omega)) d (by simp [hdm]) (by simp; omega)
      · intro u hu
        cases rest with
        | nil => simp at hu
        | cons e rest =>
          simp at hu; subst hu
          exact hk (Or.inr (by simp)) e (by simp) (by simp)

theorem consolidated_length (lower : Option (Cochain F L)) (cs : List (Cochain F L)) :
    (consolidated lower cs).length = cs.length := by
  induction cs generalizing lower with
  | nil => rfl
  | cons c cs ih => simp [consolidated, ih]

theorem consolidated_get (lower : Option (Cochain F L)) (cs : List (Cochain F L)) (i : Nat) :
    (consolidated lower cs)[i]? = (cs[i]?).map fun c =>
      { c with numCellsUpAttr := recorded cs[i + 1]? c.numCellsUpAttr,
               numCellsDownAttr := recorded (if i = 0 then lower else cs[i - 1]?)
                c.numCellsDownAttr } := by
  induction cs generalizing lower i with
  | nil => simp [consolidated]
  | cons c cs ih =>
    cases i with
    | zero => simp [consolidated, List.head?_eq_getElem?]
    | succ i =>
      simp only [consolidated, List.getElem?_cons_succ, ih]
      cases i with
      | zero => simp
      | succ i => simp

/-- Acceptance of the constructor and its result. -/
theorem complexNew_eq_ok {cs : List (Cochain F L)} {y : Option (List L)} {dimension : Option Nat}
    {comp : Complex F L} :
    Complex.new cs y dimension = .ok comp ↔
      cs ≠ [] ∧ dimension.getD (cs.length - 1) + 1 ≤ cs.length ∧
      (∀ i c, i ≤ dimension.getD (cs.length - 1) → cs[i]? = some c → c.dim = i) ∧
      (1 ≤ dimension.getD (cs.length - 1) →
        ∀ i c, i ≤ dimension.getD (cs.length - 1) → cs[i]? = some c →
          ∃ n, c.numCells = .ok (some n)) ∧
      comp = { dimension := dimension.getD (cs.length - 1),
               cochains := consolidated none (cs.take (dimension.getD (cs.length - 1) + 1)),
               y := y } := by
  unfold Complex.new
  by_cases h0 : cs.length = 0
  · rw [if_pos h0]
    have : cs = [] := List.length_eq_zero_iff.mp h0
    simp [this]
  · rw [if_neg h0]
    have hne : cs ≠ [] := fun h => h0 (by simp [h])
    generalize dimension.getD (cs.length - 1) = k
    dsimp only
    by_cases h1 : cs.length < k + 1
    · rw [if_pos h1]
      constructor
      · intro h; simp at h
      · rintro ⟨_, h2, _⟩; omega
    · rw [if_neg h1]
      have htl : (cs.take (k + 1)).length = k + 1 := by simp; omega
      have hmem : ∀ c, c ∈ cs.take (k + 1) ↔ ∃ i, i ≤ k ∧ cs[i]? = some c := by
        intro c
        rw [List.mem_iff_getElem?]
        constructor
        · rintro ⟨i, hi⟩
          have hlt : i < k + 1 := by
            have := (List.getElem?_eq_some_iff.mp hi).1; omega
          exact ⟨i, by omega, by rwa [List.getElem?_take_of_lt hlt] at hi⟩
        · rintro ⟨i, hik, hi⟩
          exact ⟨i, by rwa [List.getElem?_take_of_lt (by omega)]⟩
      constructor
      · intro h
        obtain ⟨out, ho, h⟩ := bind_eq_ok.mp h
        rw [consolidateFrom_eq_ok] at ho
        obtain ⟨hd, _, hk, rfl⟩ := ho
        cases h
        refine ⟨hne, by omega, ?_, ?_, rfl⟩
        · intro i c hik hi
          have := hd i c (by rwa [List.getElem?_take_of_lt (by omega)])
          omega
        · intro hk1 i c hik hi
          exact hk (Or.inr (by omega)) c ((hmem c).mpr ⟨i, hik, hi⟩) (by omega)
      · rintro ⟨_, _, hd, hk, rfl⟩
        rw [(consolidateFrom_eq_ok).mpr ⟨?_, ?_, ?_, rfl⟩]
        · rfl
        · intro i c hi
          have hlt : i < k + 1 := by
            have := (List.getElem?_eq_some_iff.mp hi).1; omega
          rw [List.getElem?_take_of_lt hlt] at hi
          have := hd i c (by omega) hi
          omega
        · intro l _ h; simp at h
        · intro _ c hc h2
          obtain ⟨i, hik, hi⟩ := (hmem c).mp hc
          exact hk (by omega) i c hik hi

end Verif
