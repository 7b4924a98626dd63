import Verif.Spec.Adjacency
import Verif.Lemmas.Boundary
import Verif.Lemmas.Convert
import Verif.Lemmas.Oriented

/-!
# Lemmas about the adjacencies of a boundary matrix
-/

namespace Verif

variable {R L : Type}

theorem common_symm (B : Mat) (i j : Nat) : common B i j = common B j i := by
  unfold common
  congr 1
  apply List.map_congr_left
  intro k _
  ring

/-- The columns written for stored entries. -/
def adjIndex (l : List (Nat × Nat)) : List (Nat × Nat) :=
  l.flatMap fun p => if p.1 ≤ p.2 then [] else [p, p.swap]

/-- The orientations written for stored entries. -/
def adjOrient (B : Mat) (l : List (Nat × Nat)) : List Int :=
  l.flatMap fun p => if p.1 ≤ p.2 then [] else [common B p.1 p.2, common B p.1 p.2]

theorem mem_adjIndex {l : List (Nat × Nat)} {i j : Nat} :
    (i, j) ∈ adjIndex l ↔ (j < i ∧ (i, j) ∈ l) ∨ (i < j ∧ (j, i) ∈ l) := by
  unfold adjIndex
  rw [List.mem_flatMap]
  constructor
  · rintro ⟨⟨a, b⟩, h1, h2⟩
    simp only at h2
    split at h2
    · cases h2
    · simp only [Prod.swap_prod_mk, List.mem_cons, List.not_mem_nil, or_false, Prod.mk.injEq] at h2
      rcases h2 with ⟨rfl, rfl⟩ | ⟨rfl, rfl⟩
      · exact .inl ⟨by omega, h1⟩
      · exact .inr ⟨by omega, h1⟩
  · rintro (⟨h1, h2⟩ | ⟨h1, h2⟩)
    · refine ⟨(i, j), h2, ?_⟩
      simp only
      rw [if_neg (by omega)]
      simp
    · refine ⟨(j, i), h2, ?_⟩
      simp only
      rw [if_neg (by omega)]
      simp

theorem adjIndex_nodup {l : List (Nat × Nat)} (h : l.Nodup) : (adjIndex l).Nodup := by
  unfold adjIndex
  rw [List.nodup_flatMap]
  constructor
  · rintro ⟨a, b⟩ _
    simp only
    split
    · exact List.nodup_nil
    · simp only [Prod.swap_prod_mk, List.nodup_cons, List.mem_singleton, Prod.mk.injEq, List.not_mem_nil,
        not_false_eq_true, List.nodup_nil, and_self, and_true]
      omega
  · refine h.imp ?_
    rintro ⟨a, b⟩ ⟨c, d⟩ hne
    simp only [Function.onFun]
    rintro ⟨u, v⟩ h1 h2
    split at h1
    · cases h1
    · split at h2
      · cases h2
      · simp only [Prod.swap_prod_mk, List.mem_cons, List.not_mem_nil, or_false, Prod.mk.injEq] at h1 h2
        rw [Ne, Prod.mk.injEq] at hne
        omega

theorem adj_length (B : Mat) (l : List (Nat × Nat)) : (adjIndex l).length = (adjOrient B l).length := by
  unfold adjIndex adjOrient
  rw [List.length_flatMap, List.length_flatMap]
  congr 1
  apply List.map_congr_left
  intro p _
  split <;> rfl

theorem zip_flatMap {A C E : Type} (f : A → List C) (g : A → List E) (l : List A)
    (h : ∀ a ∈ l, (f a).length = (g a).length) :
    (l.flatMap f).zip (l.flatMap g) = l.flatMap fun a => (f a).zip (g a) := by
  induction l with
  | nil => rfl
  | cons a l ih =>
    simp only [List.flatMap_cons]
    rw [List.zip_append (h a (by simp)), ih (fun b hb => h b (by simp [hb]))]

theorem adj_zip (B : Mat) (l : List (Nat × Nat)) : (adjIndex l).zip (adjOrient B l) =
    (adjIndex l).map fun p => (p, common B p.1 p.2) := by
  unfold adjIndex adjOrient
  rw [zip_flatMap _ _ _ (by intro p _; split <;> rfl), List.map_flatMap]
  congr 1
  funext p
  split
  · rfl
  · simp [common_symm B p.2 p.1]

/-- The positions off the diagonal which are not zero. -/
def offPairs (B : Mat) : List (Nat × Nat) := rowMajor B.cols fun i j => decide (i ≠ j ∧ common B i j ≠ 0)

theorem offDiagonal_eq {B A : Mat} (h : B.transpose.dot B = .ok A) : offDiagonal A = (offPairs B).length := by
  rw [Mat.dot_eq (A := B.transpose) (B := B) rfl, ok_inj] at h
  subst h
  unfold offDiagonal offPairs rowMajor
  rw [List.length_flatMap, List.length_flatMap]
  congr 1
  apply List.map_congr_left
  intro i _
  rw [List.length_map]
  rfl

theorem adjIndex_perm {lib : SparseLib} (hlib : lib.Correct) (B : Mat) :
    (adjIndex (lib.stored B)).Perm (offPairs B) := by
  unfold offPairs
  rw [List.perm_ext_iff_of_nodup (adjIndex_nodup (hlib.nodup B)) (rowMajor_nodup _ _)]
  rintro ⟨i, j⟩
  rw [mem_adjIndex, mem_rowMajor, hlib.mem, hlib.mem, decide_eq_true_eq, common_symm B j i]
  constructor
  · rintro (⟨h1, h2, h3, h4⟩ | ⟨h1, h2, h3, h4⟩)
    · exact ⟨h2, h3, by omega, h4⟩
    · exact ⟨h3, h2, by omega, h4⟩
  · rintro ⟨h1, h2, h3, h4⟩
    rcases Nat.lt_or_gt_of_ne h3 with h | h
    · exact .inr ⟨h, h2, h1, h4⟩
    · exact .inl ⟨h, h1, h2, h4⟩

/-- The entry of the product. -/
theorem gram_entry {B A : Mat} (h : B.transpose.dot B = .ok A) : A.rows = B.cols ∧ A.cols = B.cols ∧
    ∀ i j, A.entry i j = common B i j := by
  rw [Mat.dot_eq (A := B.transpose) (B := B) rfl, ok_inj] at h
  subst h
  exact ⟨rfl, rfl, fun i j => rfl⟩

/-- A stored entry on which the assertion holds. -/
def Unit' (B : Mat) (p : Nat × Nat) : Prop := p.2 < p.1 → common B p.1 p.2 = 1 ∨ common B p.1 p.2 = -1

theorem sign_unit {v : Int} (h : v = 1 ∨ v = -1) : sign v = v := by
  rcases h with rfl | rfl <;> rfl

/-- The loop over stored entries on which the assertions hold. -/
theorem record_ok {lib : SparseLib} (hlib : lib.Correct) {B A : Mat} (hA : B.transpose.dot B = .ok A)
    {pre post : List (Nat × Nat)} (hl : lib.stored B = pre ++ post) (hu : ∀ p ∈ pre, Unit' B p) :
    foldE (fun st p => do
      let st' ← recordAdjacency A st p
      if offDiagonal A < st'.1.length then .error .index else return st') ([], []) pre =
    .ok (adjIndex pre, adjOrient B pre) := by
  obtain ⟨-, -, hent⟩ := gram_entry hA
  obtain ⟨st, h1, h2⟩ := foldE_inv (f := fun st p => do
      let st' ← recordAdjacency A st p
      if offDiagonal A < st'.1.length then .error .index else return st') (l := pre) (s := ([], []))
    (fun done st => st = (adjIndex done, adjOrient B done)) rfl (by
      rintro done p rest st rfl rfl
      refine ⟨_, ?_, rfl⟩
      have hlen : (adjIndex (done ++ [p])).length ≤ offDiagonal A := by
        rw [offDiagonal_eq hA, ← (adjIndex_perm hlib B).length_eq, hl]
        have : done ++ p :: rest ++ post = (done ++ [p]) ++ (rest ++ post) := by simp
        rw [this]
        unfold adjIndex
        rw [List.flatMap_append (xs := done ++ [p]), List.length_append]
        omega
      have hstep : recordAdjacency A (adjIndex done, adjOrient B done) p =
          .ok (adjIndex (done ++ [p]), adjOrient B (done ++ [p])) := by
        obtain ⟨i, j⟩ := p
        unfold recordAdjacency adjIndex adjOrient
        simp only [List.flatMap_append, List.flatMap_singleton]
        split
        · next hij => simp [pure_eq_ok]
        · next hij =>
          have hv := hu (i, j) (by simp) (by simp only; omega)
          simp only at hv
          rw [hent, decide_eq_true hv, sign_unit hv]
          rfl
      rw [hstep, ok_bind]
      simp only
      rw [if_neg (by omega)]
      rfl)
  rw [h1, h2]

/-- Whether the adjacency of the matrix can be written down. -/
def Signed (B : Mat) : Prop :=
  ∀ i j, i < B.cols → j < B.cols → i ≠ j → common B i j = 0 ∨ common B i j = 1 ∨ common B i j = -1

theorem checkSize_ok {n : Nat} {ne : Option Nat} (h : ∀ m, ne = some m → m = n) : checkSize n ne = .ok () := by
  unfold checkSize
  cases ne with
  | none => rfl
  | some m =>
    simp only
    rw [h m rfl]
    simp [pyAssert]

theorem extractAdj_ok {lib : SparseLib} (hlib : lib.Correct) {B : Mat} {ne : Option Nat}
    (hn : ∀ n, ne = some n → n = B.cols) (hB : Signed B) :
    extractAdj lib B ne = .ok (adjIndex (lib.stored B), adjOrient B (lib.stored B)) := by
  have hA := Mat.dot_eq (A := B.transpose) (B := B) rfl
  generalize hA' : Mat.mk B.transpose.rows B.cols (fun i j =>
    ((List.range B.transpose.cols).map fun k => B.transpose.entry i k * B.entry k j).sum) = A at hA
  obtain ⟨hr, hc, hent⟩ := gram_entry hA
  have hfold := record_ok hlib hA (pre := lib.stored B) (post := []) (by simp) (by
    rintro ⟨i, j⟩ hp hij
    obtain ⟨h1, h2, h3⟩ := (hlib.mem B i j).mp hp
    have := hB i j h1 h2 (by simp only at hij; omega)
    simp only
    omega)
  unfold extractAdj
  rw [hA, ok_bind]
  have hne := checkSize_ok (hr ▸ hn)
  have hlen : (adjIndex (lib.stored B)).length = offDiagonal A := by
    rw [offDiagonal_eq hA, (adjIndex_perm hlib B).length_eq]
  rw [hne, ok_bind]
  simp only
  rw [hfold, ok_bind]
  simp only
  rw [decide_eq_true hlen]
  rfl

theorem first_bad {A : Type} {Q : A → Prop} {l : List A} (h : ¬ ∀ a ∈ l, Q a) :
    ∃ pre a post, l = pre ++ a :: post ∧ (∀ b ∈ pre, Q b) ∧ ¬ Q a := by
  induction l with
  | nil => exact absurd (by simp) h
  | cons a l ih =>
    by_cases ha : Q a
    · obtain ⟨pre, b, post, rfl, h1, h2⟩ := ih (fun h' => h (by simpa [ha] using h'))
      refine ⟨a :: pre, b, post, rfl, ?_, h2⟩
      intro c hc
      rcases List.mem_cons.mp hc with rfl | hc
      · exact ha
      · exact h1 c hc
    · exact ⟨[], a, l, rfl, by simp, ha⟩

theorem extractAdj_bad {lib : SparseLib} (hlib : lib.Correct) {B : Mat} {ne : Option Nat}
    (h : ¬ ((∀ n, ne = some n → n = B.cols) ∧ Signed B)) : extractAdj lib B ne = .error .assertion := by
  have hA := Mat.dot_eq (A := B.transpose) (B := B) rfl
  generalize hA' : Mat.mk B.transpose.rows B.cols (fun i j =>
    ((List.range B.transpose.cols).map fun k => B.transpose.entry i k * B.entry k j).sum) = A at hA
  obtain ⟨hr, hc, hent⟩ := gram_entry hA
  unfold extractAdj
  rw [hA, ok_bind]
  by_cases hn : ∀ n, ne = some n → n = B.cols
  · have hne := checkSize_ok (hr ▸ hn)
    rw [hne, ok_bind]
    have hbad : ¬ ∀ p ∈ lib.stored B, Unit' B p := by
      intro hall
      apply h
      refine ⟨hn, ?_⟩
      intro i j hi hj hij
      by_cases h0 : common B i j = 0
      · exact .inl h0
      · right
        rcases Nat.lt_or_gt_of_ne hij with hlt | hlt
        · have := hall (j, i) ((hlib.mem B j i).mpr ⟨hj, hi, by rw [common_symm]; exact h0⟩) hlt
          simp only at this
          rwa [common_symm] at this
        · exact hall (i, j) ((hlib.mem B i j).mpr ⟨hi, hj, h0⟩) hlt
    obtain ⟨pre, ⟨i, j⟩, post, hl, h1, h2⟩ := first_bad hbad
    have hfold := record_ok hlib hA hl h1
    simp only
    rw [hl, foldE_append, hfold, ok_bind]
    unfold Unit' at h2
    simp only [Classical.not_imp] at h2
    obtain ⟨h3, h4⟩ := h2
    unfold foldE recordAdjacency
    simp only
    rw [if_neg (by omega), hent, decide_eq_false h4]
    rfl
  · push Not at hn
    obtain ⟨n, rfl, hn⟩ := hn
    unfold checkSize
    simp only
    rw [hr, decide_eq_false (fun e => hn e.symm)]
    rfl

/-! ### Reversing edges -/

/-- `B'` is `B` with the columns multiplied by signs. -/
structure ColSigned (s : Nat → Int) (B B' : Mat) : Prop where
  rows : B'.rows = B.rows
  cols : B'.cols = B.cols
  entry : ∀ i j, i < B.rows → j < B.cols → B'.entry i j = s j * B.entry i j

theorem sum_mul_left (c : Int) (f : Nat → Int) (l : List Nat) :
    (l.map fun k => c * f k).sum = c * (l.map f).sum := by
  induction l with
  | nil => simp
  | cons a l ih => simp only [List.map_cons, List.sum_cons, ih]; ring

theorem ColSigned.common {s : Nat → Int} {B B' : Mat} (h : ColSigned s B B') {i j : Nat} (hi : i < B.cols)
    (hj : j < B.cols) : common B' i j = s i * s j * common B i j := by
  unfold Verif.common
  rw [h.rows, ← sum_mul_left]
  congr 1
  apply List.map_congr_left
  intro k hk
  rw [List.mem_range] at hk
  rw [h.entry k i hk hi, h.entry k j hk hj]
  ring

theorem unit_mul {s : Nat → Int} (hs : Signs s) (i j : Nat) : s i * s j = 1 ∨ s i * s j = -1 := by
  rcases hs i with h | h <;> rcases hs j with h' | h' <;> rw [h, h'] <;> decide

theorem ColSigned.signed {s : Nat → Int} (hs : Signs s) {B B' : Mat} (h : ColSigned s B B') : Signed B' ↔ Signed B := by
  unfold Signed
  rw [h.cols]
  have : ∀ i j, i < B.cols → j < B.cols → ((Verif.common B' i j = 0 ∨ Verif.common B' i j = 1 ∨ Verif.common B' i j = -1) ↔
      (Verif.common B i j = 0 ∨ Verif.common B i j = 1 ∨ Verif.common B i j = -1)) := by
    intro i j hi hj
    rw [h.common hi hj]
    rcases unit_mul hs i j with e | e <;> rw [e] <;> omega
  constructor
  · intro H i j hi hj hij
    exact (this i j hi hj).mp (H i j hi hj hij)
  · intro H i j hi hj hij
    exact (this i j hi hj).mpr (H i j hi hj hij)

theorem ColSigned.stored {lib : SparseLib} (hlib : lib.Correct) {s : Nat → Int} (hs : Signs s) {B B' : Mat}
    (h : ColSigned s B B') : lib.stored B' = lib.stored B := by
  refine (hlib.pattern B B' h.rows.symm h.cols.symm ?_ ?_).symm
  · intro i j hi hj
    rw [h.entry i j hi hj]
    rcases hs j with e | e <;> rw [e] <;> omega
  · intro i j hi hj
    rw [h.common hi hj]
    rcases unit_mul hs i j with e | e <;> rw [e] <;> omega

theorem ColSigned.extract {lib : SparseLib} (hlib : lib.Correct) {s : Nat → Int} (hs : Signs s) {B B' : Mat}
    (h : ColSigned s B B') (ne : Option Nat) : extractAdj lib B' ne =
      (extractAdj lib B ne).map fun a => (a.1, flipCols s a.1 a.2) := by
  by_cases hok : (∀ n, ne = some n → n = B.cols) ∧ Signed B
  · rw [extractAdj_ok hlib hok.1 hok.2, extractAdj_ok hlib (by rw [h.cols]; exact hok.1) ((h.signed hs).mpr hok.2),
      h.stored hlib hs]
    show _ = Except.ok _
    rw [ok_inj, Prod.mk.injEq]
    refine ⟨rfl, ?_⟩
    simp only [flipCols]
    rw [adj_zip, List.map_map]
    have : adjOrient B' (lib.stored B) = ((adjIndex (lib.stored B)).zip (adjOrient B' (lib.stored B))).map Prod.snd := by
      rw [List.map_snd_zip (by rw [adj_length B'])]
    rw [this, adj_zip, List.map_map]
    apply List.map_congr_left
    rintro ⟨i, j⟩ hp
    simp only [Function.comp]
    rw [mem_adjIndex, hlib.mem, hlib.mem] at hp
    rcases hp with ⟨-, h1, h2, -⟩ | ⟨-, h1, h2, -⟩
    · exact h.common h1 h2
    · exact h.common h2 h1
  · rw [extractAdj_bad hlib hok, extractAdj_bad hlib (by rw [h.cols, h.signed hs]; exact hok)]
    rfl

/-- The diagonal matrix of signs. -/
def signMatrix (n : Nat) (s : Nat → Int) : Mat := Mat.diag ((List.range n).map s)

theorem signMatrix_entry {n : Nat} {s : Nat → Int} {i j : Nat} (hi : i < n) :
    (signMatrix n s).entry i j = if i = j then s i else 0 := by
  simp [signMatrix, Mat.diag, hi]

theorem signMatrix_shape {n : Nat} {s : Nat → Int} : (signMatrix n s).rows = n ∧ (signMatrix n s).cols = n := by
  simp [signMatrix, Mat.diag]

theorem signMatrix_one (n : Nat) : ∀ i j, i < n → (signMatrix n fun _ => 1).entry i j = (Mat.identity n).entry i j := by
  intro i j hi
  rw [signMatrix_entry hi]
  rfl

/-- A product with a diagonal matrix from the right. -/
theorem dot_diagonal {B T : Mat} {n : Nat} {s : Nat → Int} (hr : T.rows = n) (hc : T.cols = n) (hn : B.cols = n)
    (ht : ∀ i j, i < n → T.entry i j = if i = j then s i else 0) :
    ∃ C, B.dot T = .ok C ∧ C.rows = B.rows ∧ C.cols = n ∧ ∀ i j, j < n → C.entry i j = s j * B.entry i j := by
  refine ⟨_, Mat.dot_eq (by rw [hn, hr]), rfl, hc, ?_⟩
  intro i j hj
  simp only
  have : ((List.range B.cols).map fun k => B.entry i k * T.entry k j) =
      (List.range B.cols).map fun k => if k = j then s j * B.entry i j else 0 := by
    apply List.map_congr_left
    intro k hk
    rw [List.mem_range, hn] at hk
    rw [ht k j hk]
    split
    · next e => rw [e]; ring
    · ring
  rw [this, sum_range_single, if_pos (by omega)]

/-- A product with a diagonal matrix from the left. -/
theorem diagonal_dot {B T : Mat} {n : Nat} {s : Nat → Int} (hr : T.rows = n) (hc : T.cols = n) (hn : B.rows = n)
    (ht : ∀ i j, i < n → T.entry i j = if i = j then s i else 0) :
    ∃ C, T.dot B = .ok C ∧ C.rows = n ∧ C.cols = B.cols ∧ ∀ i j, i < n → C.entry i j = s i * B.entry i j := by
  refine ⟨_, Mat.dot_eq (by rw [hn, hc]), hr, rfl, ?_⟩
  intro i j hi
  simp only
  have : ((List.range T.cols).map fun k => T.entry i k * B.entry k j) =
      (List.range T.cols).map fun k => if k = i then s i * B.entry i j else 0 := by
    apply List.map_congr_left
    intro k hk
    rw [ht i k hi]
    by_cases e : k = i
    · rw [e]; simp
    · rw [if_neg e, if_neg (fun h => e h.symm)]; ring
  rw [this, sum_range_single, if_pos (by omega)]

theorem sum_zipIdx_single [AddCommGroup R] (x : List R) (i m : Nat) (c : Int) :
    ((x.zipIdx m).map fun p => (if i = p.2 then c else 0) • p.1).sum =
      if m ≤ i then ((x[i - m]?).map fun r => c • r).getD 0 else 0 := by
  induction x generalizing m with
  | nil => simp
  | cons r x ih =>
    rw [List.zipIdx_cons, List.map_cons, List.sum_cons, ih]
    simp only
    by_cases h1 : i = m
    · subst h1
      rw [if_pos rfl, if_neg (by omega), if_pos (by omega)]
      simp
    · rw [if_neg h1, zero_smul, zero_add]
      by_cases h2 : m + 1 ≤ i
      · rw [if_pos h2, if_pos (by omega)]
        have : i - m = i - (m + 1) + 1 := by omega
        rw [this, List.getElem?_cons_succ]
      · rw [if_neg h2, if_neg (by omega)]

/-- The features, if their number fits. -/
def fitRows [AddCommGroup R] (n : Nat) (s : Nat → Int) (x : List R) : Py (List R) :=
  if x.length = n then .ok (flipRows s x) else .error .value

theorem dotRows_diagonal [AddCommGroup R] {T : Mat} {n : Nat} {s : Nat → Int} (hr : T.rows = n) (hc : T.cols = n)
    (ht : ∀ i j, i < n → T.entry i j = if i = j then s i else 0) (x : List R) :
    dotRows T x = fitRows n s x := by
  unfold dotRows fitRows
  rw [hc, hr]
  by_cases h : x.length = n
  · rw [if_pos h.symm, if_pos h, ok_inj]
    apply List.ext_getElem?
    intro i
    unfold flipRows
    rw [List.getElem?_map, List.getElem?_mapIdx]
    by_cases hi : i < n
    · rw [List.getElem?_range hi, Option.map_some]
      have : (x.zipIdx.map fun p => T.entry i p.2 • p.1) = x.zipIdx.map fun p => (if i = p.2 then s i else 0) • p.1 := by
        apply List.map_congr_left
        intro p _
        rw [ht i p.2 hi]
      rw [this, sum_zipIdx_single, if_pos (Nat.zero_le _), Nat.sub_zero,
        List.getElem?_eq_getElem (by omega : i < x.length)]
      rfl
    · rw [List.getElem?_eq_none (by simp; omega), List.getElem?_eq_none (by omega)]
      rfl
  · rw [if_neg (fun e => h e.symm), if_neg h]

end Verif
