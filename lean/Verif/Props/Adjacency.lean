import Verif.Spec.FlowData
import Verif.Lemmas.Adjacency
import Verif.Props.Boundary
import Verif.Props.Oriented

/-!
# Properties of the adjacencies of boundary matrices and of changes of orientation (C46, C60)
-/

namespace Verif

variable {P R L 𝕜 : Type}

/-- **C46** The extracted adjacency: both directions, once each, of every pair of different columns whose
common rows do not cancel; the orientation is the sum over the rows of the products of the two signs. -/
theorem C46_adjacency (lib : SparseLib) (hlib : lib.Correct) (B : Mat) (numEdges : Option Nat)
    (hn : ∀ n, numEdges = some n → n = B.cols)
    (hB : ∀ i j, i < B.cols → j < B.cols → i ≠ j → common B i j = 0 ∨ common B i j = 1 ∨ common B i j = -1) :
    ∃ index orient, extractAdj lib B numEdges = .ok (index, orient) ∧ index.Nodup ∧
      orient.length = index.length ∧
      (∀ i j, (i, j) ∈ index ↔ i < B.cols ∧ j < B.cols ∧ i ≠ j ∧ common B i j ≠ 0) ∧
      (∀ i j, (i, j) ∈ index ↔ (j, i) ∈ index) ∧
      ∀ (k i j : Nat) o, index[k]? = some (i, j) → orient[k]? = some o → o = common B i j := by
  have hmem : ∀ i j, (i, j) ∈ adjIndex (lib.stored B) ↔ i < B.cols ∧ j < B.cols ∧ i ≠ j ∧ common B i j ≠ 0 := by
    intro i j
    rw [(adjIndex_perm hlib B).mem_iff, offPairs, mem_rowMajor, decide_eq_true_eq]
  refine ⟨_, _, extractAdj_ok hlib hn hB, adjIndex_nodup (hlib.nodup B), (adj_length B _).symm, hmem, ?_, ?_⟩
  · intro i j
    rw [hmem, hmem, common_symm B j i]
    tauto
  · intro k i j o h1 h2
    have := congrArg (fun l => l[k]?) (adj_zip B (lib.stored B))
    simp only [List.getElem?_map, h1, Option.map_some] at this
    have hz : ((adjIndex (lib.stored B)).zip (adjOrient B (lib.stored B)))[k]? = some ((i, j), o) :=
      List.getElem?_zip_eq_some.mpr ⟨h1, h2⟩
    rw [hz, Option.some.injEq, Prod.mk.injEq] at this
    exact this.2

/-- Three columns; the second meets each of the others in one row, with opposite signs in the second row. -/
example := C46_adjacency rowMajorLib rowMajorLib_correct
  ⟨2, 3, fun k i => ((([[1, 1, 0], [0, -1, 1]] : List (List Int)).getD k []).getD i 0)⟩ (some 3) (by simp)
  (fun i j hi hj => (by decide : ∀ i < 3, ∀ j < 3, i ≠ j → common ⟨2, 3, _⟩ i j = 0 ∨ common ⟨2, 3, _⟩ i j = 1 ∨
    common ⟨2, 3, _⟩ i j = -1) i hi j hj)

/-- **C46** When two different columns have common rows that add up to anything else, or the number of columns is
not that of the edges of the graph, the matrix is rejected. -/
theorem C46_rejected (lib : SparseLib) (hlib : lib.Correct) (B : Mat) (numEdges : Option Nat)
    (h : (∃ n, numEdges = some n ∧ n ≠ B.cols) ∨ ∃ i j, i < B.cols ∧ j < B.cols ∧ i ≠ j ∧ 1 < (common B i j).natAbs) :
    extractAdj lib B numEdges = .error .assertion := by
  apply extractAdj_bad hlib
  rintro ⟨h1, h2⟩
  rcases h with ⟨n, h3, h4⟩ | ⟨i, j, hi, hj, hij, h3⟩
  · exact h4 (h1 n h3)
  · have := h2 i j hi hj hij
    omega

/-- Two columns that meet in two rows. -/
example := C46_rejected rowMajorLib rowMajorLib_correct ⟨2, 2, fun _ _ => 1⟩ none
  (.inr ⟨0, 1, by decide, by decide, by decide, by decide⟩)

theorem flipRows_one [AddCommGroup R] (x : List R) : flipRows (fun _ => 1) x = x := by
  unfold flipRows
  apply List.ext_getElem?
  intro i
  rw [List.getElem?_mapIdx]
  cases x[i]? <;> simp

/-- What a cochain is built from when the diagonal matrix fits. -/
theorem buildCochain_diagonal [AddCommGroup R] (lib : SparseLib) (B1 B2 T : Mat) (n : Nat) (s : Nat → Int) (x : List R)
    (label : L) (ne : Option Nat) (hr : T.rows = n) (hc : T.cols = n)
    (ht : ∀ i j, i < n → T.entry i j = if i = j then s i else 0) (h1 : B1.cols = n) (h2 : B2.rows = n) :
    ∃ C1 C2, ColSigned s B1 C1 ∧ ColSigned s B2.transpose C2 ∧ buildCochain lib B1 B2 T x label ne = (do
      let lower ← extractAdj lib C1 ne
      let upper ← extractAdj lib C2 ne
      let x' ← fitRows n s x
      return { dim := 1, x := some x', lowerIndex := some lower.1, lowerOrient := some lower.2,
               upperIndex := some upper.1, upperOrient := some upper.2, y := some [label] }) := by
  obtain ⟨C1, e1, r1, c1, m1⟩ := dot_diagonal (B := B1) hr hc h1 ht
  obtain ⟨C2, e2, r2, c2, m2⟩ := diagonal_dot (B := B2) hr hc h2 ht
  refine ⟨C1, C2.transpose, ⟨r1, by rw [c1, h1], fun i j _ hj => m1 i j (by omega)⟩,
    ⟨c2, by show C2.rows = B2.rows; rw [r2, h2], fun i j _ hj => m2 j i (by rw [← h2]; exact hj)⟩, ?_⟩
  unfold buildCochain
  rw [e1, ok_bind, e2, ok_bind, dotRows_diagonal hr hc ht]
  rfl

theorem buildCochain_shapes [AddCommGroup R] (lib : SparseLib) (B1 B2 T : Mat) (n : Nat) (x : List R)
    (label : L) (ne : Option Nat) (hr : T.rows = n) (hc : T.cols = n) (h : ¬ (B1.cols = n ∧ B2.rows = n)) :
    buildCochain lib B1 B2 T x label ne = .error .value := by
  unfold buildCochain Mat.dot
  rw [hr, hc]
  by_cases h1 : B1.cols = n
  · rw [if_pos h1, ok_bind, if_neg (fun e => h ⟨h1, e.symm⟩)]
    rfl
  · rw [if_neg h1]
    rfl

/-- **C46** A change of orientation: building a cochain with a diagonal matrix of signs gives the cochain that
is built without one, with the features of the edges of sign -1 negated and every orientation multiplied with the
signs of its two edges; it fails exactly when the other one fails. -/
theorem C46_change_of_orientation [AddCommGroup R] (lib : SparseLib) (hlib : lib.Correct) (B1 B2 : Mat) (n : Nat)
    (s : Nat → Int) (hs : Signs s) (x : List R) (label : L) (numEdges : Option Nat) :
    buildCochain lib B1 B2 (Mat.diag ((List.range n).map s)) x label numEdges =
      (buildCochain lib B1 B2 (Mat.identity n) x label numEdges).map (Cochain.flip s) := by
  have sh := signMatrix_shape (n := n) (s := s)
  by_cases h : B1.cols = n ∧ B2.rows = n
  · obtain ⟨C1, C2, k1, k2, e1⟩ := buildCochain_diagonal lib B1 B2 (signMatrix n s) n s x label numEdges sh.1 sh.2
      (fun i j hi => signMatrix_entry hi) h.1 h.2
    obtain ⟨D1, D2, g1, g2, e2⟩ := buildCochain_diagonal lib B1 B2 (Mat.identity n) n (fun _ => 1) x label numEdges rfl
      rfl (fun i j hi => rfl) h.1 h.2
    have f1 : ColSigned s D1 C1 := ⟨by rw [k1.rows, g1.rows], by rw [k1.cols, g1.cols], fun i j hi hj => by
      rw [g1.rows] at hi
      rw [g1.cols] at hj
      rw [k1.entry i j hi hj, g1.entry i j hi hj, one_mul]⟩
    have f2 : ColSigned s D2 C2 := ⟨by rw [k2.rows, g2.rows], by rw [k2.cols, g2.cols], fun i j hi hj => by
      rw [g2.rows] at hi
      rw [g2.cols] at hj
      rw [k2.entry i j hi hj, g2.entry i j hi hj, one_mul]⟩
    have e1' := e1
    unfold signMatrix at e1'
    rw [e1', e2, f1.extract hlib hs, f2.extract hlib hs]
    cases extractAdj lib D1 numEdges with
    | error e => rfl
    | ok lower =>
      cases extractAdj lib D2 numEdges with
      | error e => rfl
      | ok upper =>
        unfold fitRows
        by_cases hx : x.length = n
        · rw [if_pos hx, if_pos hx, flipRows_one]; rfl
        · rw [if_neg hx, if_neg hx]; rfl
  · have e1 := buildCochain_shapes lib B1 B2 (signMatrix n s) n x label numEdges sh.1 sh.2 h
    have e2 := buildCochain_shapes lib B1 B2 (Mat.identity n) n x label numEdges rfl rfl h
    unfold signMatrix at e1
    rw [e1, e2]
    rfl

/-- The second of three edges is reversed. -/
example := C46_change_of_orientation rowMajorLib rowMajorLib_correct
  ⟨2, 3, fun k i => ((([[-1, -1, 0], [1, 0, -1]] : List (List Int)).getD k []).getD i 0)⟩ (Mat.zeros 3 0) 3
  (fun e => if e = 1 then -1 else 1) (fun e => by by_cases h : e = 1 <;> simp [h]) [(5 : Int), 6, 7] "label" (some 3)

/-- **C46** The two kinds of orientation matrices; any other kind is rejected. -/
theorem C46_orientation_matrices (size : Nat) (orientation : String) (bits : Nat → Bool) :
    (orientation = "default" → orientMatrix size orientation bits = .ok (Mat.identity size)) ∧
    (orientation = "random" → ∃ s, Signs s ∧
      orientMatrix size orientation bits = .ok (Mat.diag ((List.range size).map s))) ∧
    (orientation ≠ "default" → orientation ≠ "random" → orientMatrix size orientation bits = .error .value) := by
  refine ⟨?_, ?_, ?_⟩
  · rintro rfl
    rfl
  · rintro rfl
    refine ⟨fun i => if bits i then 1 else -1, ?_, ?_⟩
    · intro c
      by_cases h : bits c <;> simp [h]
    · unfold orientMatrix
      rw [if_neg (by decide), if_pos rfl]
  · intro h1 h2
    unfold orientMatrix
    rw [if_neg h1, if_neg h2]

example := (C46_orientation_matrices 3 "default" fun _ => true).1 rfl

/-- Heads for the first and the third of three edges. -/
example : (orientMatrix 3 "random" fun i => i != 1).map (fun T => (List.range 3).map fun e => T.entry e e) =
    .ok [1, -1, 1] := by decide

/-! ### Triangulations -/

/-- Two different columns have at most one row in common. -/
structure MeetOnce (B : Mat) : Prop where
  unit : ∀ k i, k < B.rows → i < B.cols → B.entry k i = 0 ∨ B.entry k i = 1 ∨ B.entry k i = -1
  once : ∀ i j k l, i < B.cols → j < B.cols → k < B.rows → l < B.rows → i ≠ j → B.entry k i ≠ 0 → B.entry k j ≠ 0 →
    B.entry l i ≠ 0 → B.entry l j ≠ 0 → k = l

theorem MeetOnce.common_eq {B : Mat} (h : MeetOnce B) {i j k : Nat} (hi : i < B.cols) (hj : j < B.cols) (hij : i ≠ j)
    (hk : k < B.rows) (h1 : B.entry k i ≠ 0) (h2 : B.entry k j ≠ 0) : common B i j = B.entry k i * B.entry k j := by
  unfold common
  have : ((List.range B.rows).map fun l => B.entry l i * B.entry l j) =
      (List.range B.rows).map fun l => if l = k then B.entry k i * B.entry k j else 0 := by
    apply List.map_congr_left
    intro l hl
    rw [List.mem_range] at hl
    by_cases e : l = k
    · rw [if_pos e, e]
    · rw [if_neg e]
      by_contra hne
      refine e (h.once i j l k hi hj hl hk hij ?_ ?_ h1 h2)
      · intro h0; rw [h0, zero_mul] at hne; exact hne rfl
      · intro h0; rw [h0, mul_zero] at hne; exact hne rfl
  rw [this, sum_range_single, if_pos hk]

theorem MeetOnce.common_ne {B : Mat} (h : MeetOnce B) {i j : Nat} (hi : i < B.cols) (hj : j < B.cols) (hij : i ≠ j) :
    common B i j ≠ 0 ↔ ∃ k, k < B.rows ∧ B.entry k i ≠ 0 ∧ B.entry k j ≠ 0 := by
  constructor
  · intro hne
    by_contra hno
    apply hne
    unfold common
    apply List.sum_eq_zero
    intro v hv
    obtain ⟨k, hk, rfl⟩ := List.mem_map.mp hv
    rw [List.mem_range] at hk
    by_cases h1 : B.entry k i = 0
    · rw [h1, zero_mul]
    · by_cases h2 : B.entry k j = 0
      · rw [h2, mul_zero]
      · exact absurd ⟨k, hk, h1, h2⟩ hno
  · rintro ⟨k, hk, h1, h2⟩
    rw [h.common_eq hi hj hij hk h1 h2]
    exact mul_ne_zero h1 h2

theorem MeetOnce.signed {B : Mat} (h : MeetOnce B) : Signed B := by
  intro i j hi hj hij
  by_cases h0 : common B i j = 0
  · exact .inl h0
  · right
    obtain ⟨k, hk, h1, h2⟩ := (h.common_ne hi hj hij).mp h0
    rw [h.common_eq hi hj hij hk h1 h2]
    rcases h.unit k i hk hi with e | e | e
    · exact absurd e h1
    · rcases h.unit k j hk hj with e' | e' | e'
      · exact absurd e' h2
      · rw [e, e']; decide
      · rw [e, e']; decide
    · rcases h.unit k j hk hj with e' | e' | e'
      · exact absurd e' h2
      · rw [e, e']; decide
      · rw [e, e']; decide

theorem MeetOnce.adjacency {lib : SparseLib} (hlib : lib.Correct) {B : Mat} (h : MeetOnce B) :
    ∃ index orient, extractAdj lib B (some B.cols) = .ok (index, orient) ∧
      AdjacencyOf B.rows B.cols B.entry index orient := by
  obtain ⟨index, orient, e, h1, h2, h3, -, h5⟩ := C46_adjacency lib hlib B (some B.cols)
    (fun n hn => (Option.some.inj hn).symm) h.signed
  refine ⟨index, orient, e, h1, h2, ?_, ?_⟩
  · intro i j
    rw [h3]
    constructor
    · rintro ⟨hi, hj, hij, hne⟩
      exact ⟨hi, hj, hij, (h.common_ne hi hj hij).mp hne⟩
    · rintro ⟨hi, hj, hij, hne⟩
      exact ⟨hi, hj, hij, (h.common_ne hi hj hij).mpr hne⟩
  · intro p i j o hp ho k hk a b
    obtain ⟨hi, hj, hij, -⟩ := (h3 i j).mp (List.mem_of_getElem? hp)
    rw [h5 p i j o hp ho, h.common_eq hi hj hij hk a b]

theorem AdjacencyOf.congr {rows cols : Nat} {sgn sgn' : Nat → Nat → Int} {index : List (Nat × Nat)} {orient : List Int}
    (h : AdjacencyOf rows cols sgn index orient) (he : ∀ k e, k < rows → e < cols → sgn k e = sgn' k e) :
    AdjacencyOf rows cols sgn' index orient := by
  refine ⟨h.nodup, h.length, ?_, ?_⟩
  · intro e f
    rw [h.mem]
    constructor
    · rintro ⟨h1, h2, h3, k, hk, a, b⟩
      exact ⟨h1, h2, h3, k, hk, he k e hk h1 ▸ a, he k f hk h2 ▸ b⟩
    · rintro ⟨h1, h2, h3, k, hk, a, b⟩
      exact ⟨h1, h2, h3, k, hk, (he k e hk h1).symm ▸ a, (he k f hk h2).symm ▸ b⟩
  · intro p e f o hp ho k hk a b
    obtain ⟨h1, h2, -⟩ := (h.mem e f).mp (List.mem_of_getElem? hp)
    rw [← he k e hk h1] at a ⊢
    rw [← he k f hk h2] at b ⊢
    exact h.orient p e f o hp ho k hk a b

theorem MeetOnce.congr {B B' : Mat} (h : MeetOnce B) (hc : ColSigned (fun _ => 1) B B') : MeetOnce B' := by
  have he : ∀ k i, k < B.rows → i < B.cols → B'.entry k i = B.entry k i := by
    intro k i hk hi
    rw [hc.entry k i hk hi, one_mul]
  constructor
  · intro k i hk hi
    rw [hc.rows] at hk
    rw [hc.cols] at hi
    rw [he k i hk hi]
    exact h.unit k i hk hi
  · intro i j k l hi hj hk hl hij a b c d
    rw [hc.cols] at hi hj
    rw [hc.rows] at hk hl
    rw [he k i hk hi] at a
    rw [he k j hk hj] at b
    rw [he l i hl hi] at c
    rw [he l j hl hj] at d
    exact h.once i j k l hi hj hk hl hij a b c d

theorem edges_meet_once {edges : List (Nat × Nat)} {B : Mat} (hnd : edges.Nodup) (hc : B.cols = edges.length)
    (hlt : ∀ (e a b : Nat), edges[e]? = some (a, b) → a < b)
    (hB : ∀ (v e a b : Nat), edges[e]? = some (a, b) → (B.entry v e = 1 ↔ v = b) ∧ (B.entry v e = -1 ↔ v = a) ∧
        (B.entry v e = 0 ↔ v ≠ a ∧ v ≠ b)) : MeetOnce B := by
  have hget : ∀ e, e < B.cols → ∃ a b, edges[e]? = some (a, b) := by
    intro e he
    rw [hc] at he
    exact ⟨_, _, List.getElem?_eq_getElem he⟩
  constructor
  · intro k i _ hi
    obtain ⟨a, b, he⟩ := hget i hi
    obtain ⟨h1, h2, h3⟩ := hB k i a b he
    by_cases ha : k = a
    · exact .inr (.inr (h2.mpr ha))
    · by_cases hb : k = b
      · exact .inr (.inl (h1.mpr hb))
      · exact .inl (h3.mpr ⟨ha, hb⟩)
  · intro i j k l hi hj _ _ hij n1 n2 n3 n4
    obtain ⟨a, b, he⟩ := hget i hi
    obtain ⟨c, d, hf⟩ := hget j hj
    have l1 := hlt i a b he
    have l2 := hlt j c d hf
    rw [Ne, (hB k i a b he).2.2] at n1
    rw [Ne, (hB k j c d hf).2.2] at n2
    rw [Ne, (hB l i a b he).2.2] at n3
    rw [Ne, (hB l j c d hf).2.2] at n4
    by_contra hkl
    have : a = c ∧ b = d := by omega
    obtain ⟨rfl, rfl⟩ := this
    have p1 := lt_of_get he
    have p2 := lt_of_get hf
    rw [List.getElem?_eq_getElem p1, Option.some.injEq] at he
    rw [List.getElem?_eq_getElem p2, Option.some.injEq] at hf
    exact hij ((List.Nodup.getElem_inj_iff hnd (hi := p1) (hj := p2)).mp (he.trans hf.symm))

theorem Tri.step_corners {t : Tri} {a b : Nat} (h : (a, b) ∈ t.steps ∨ (b, a) ∈ t.steps) :
    a ∈ t.corners ∧ b ∈ t.corners := by
  simp only [Tri.steps, List.mem_cons, List.not_mem_nil, or_false, Prod.mk.injEq] at h
  simp only [Tri.corners, List.mem_cons, List.not_mem_nil, or_false]
  omega

theorem three_of_four {a b c d : Nat} (h1 : a < b) (h2 : c < d) (hne : (a, b) ≠ (c, d)) :
    ∃ z, (z = c ∨ z = d) ∧ z ≠ a ∧ z ≠ b := by
  rw [Ne, Prod.mk.injEq] at hne
  by_cases h : c = a ∨ c = b
  · exact ⟨d, .inr rfl, by omega, by omega⟩
  · exact ⟨c, .inl rfl, by omega, by omega⟩

/-- Three different corners of a triangle are all its corners. -/
theorem Tri.corners_of_three {t : Tri} {a b z : Nat} (ha : a ∈ t.corners) (hb : b ∈ t.corners) (hz : z ∈ t.corners)
    (hab : a ≠ b) (hza : z ≠ a) (hzb : z ≠ b) (v : Nat) : v ∈ t.corners ↔ v = a ∨ v = b ∨ v = z := by
  rw [Tri.mem_corners] at *
  constructor
  · intro hv; omega
  · rintro (rfl | rfl | rfl)
    · exact ha
    · exact hb
    · exact hz

theorem sides_meet_once {triangles : List Tri} {edges : List (Nat × Nat)} {B : Mat} (hnd : edges.Nodup)
    (hr : B.rows = edges.length) (hc : B.cols = triangles.length)
    (hlt : ∀ (e a b : Nat), edges[e]? = some (a, b) → a < b)
    (hdiff : ∀ (i j : Nat) s t, triangles[i]? = some s → triangles[j]? = some t →
      (∀ v, v ∈ s.corners ↔ v ∈ t.corners) → i = j)
    (hB : ∀ (e i a b : Nat) (t : Tri), edges[e]? = some (a, b) → triangles[i]? = some t →
        (B.entry e i = 1 ↔ (a, b) ∈ t.steps) ∧ (B.entry e i = -1 ↔ (b, a) ∈ t.steps) ∧
        (B.entry e i = 0 ↔ (a, b) ∉ t.steps ∧ (b, a) ∉ t.steps)) : MeetOnce B.transpose := by
  have hget : ∀ e, e < B.rows → ∃ a b, edges[e]? = some (a, b) := by
    intro e he
    rw [hr] at he
    exact ⟨_, _, List.getElem?_eq_getElem he⟩
  have hget' : ∀ i, i < B.cols → ∃ t, triangles[i]? = some t := by
    intro i hi
    rw [hc] at hi
    exact ⟨_, List.getElem?_eq_getElem hi⟩
  constructor
  · intro k e hk he
    obtain ⟨a, b, g1⟩ := hget e he
    obtain ⟨t, g2⟩ := hget' k hk
    obtain ⟨h1, h2, h3⟩ := hB e k a b t g1 g2
    show B.entry e k = 0 ∨ B.entry e k = 1 ∨ B.entry e k = -1
    rw [h1, h2, h3]
    tauto
  · intro e f k l he hf hk hl hef n1 n2 n3 n4
    obtain ⟨a, b, g1⟩ := hget e he
    obtain ⟨c, d, g2⟩ := hget f hf
    obtain ⟨s, g3⟩ := hget' k hk
    obtain ⟨t, g4⟩ := hget' l hl
    have l1 := hlt e a b g1
    have l2 := hlt f c d g2
    have cor : ∀ (e i a b : Nat) (t : Tri), edges[e]? = some (a, b) → triangles[i]? = some t →
        B.transpose.entry i e ≠ 0 → a ∈ t.corners ∧ b ∈ t.corners := by
      intro e i a b t h1 h2 h3
      change B.entry e i ≠ 0 at h3
      rw [Ne, (hB e i a b t h1 h2).2.2] at h3
      exact Tri.step_corners (by tauto)
    have c1 := cor e k a b s g1 g3 n1
    have c2 := cor f k c d s g2 g3 n2
    have c3 := cor e l a b t g1 g4 n3
    have c4 := cor f l c d t g2 g4 n4
    have hne : (a, b) ≠ (c, d) := by
      intro heq
      rw [heq] at g1
      have p1 := lt_of_get g1
      have p2 := lt_of_get g2
      rw [List.getElem?_eq_getElem p1, Option.some.injEq] at g1
      rw [List.getElem?_eq_getElem p2, Option.some.injEq] at g2
      exact hef ((List.Nodup.getElem_inj_iff hnd (hi := p1) (hj := p2)).mp (g1.trans g2.symm))
    obtain ⟨z, hz, hza, hzb⟩ := three_of_four l1 l2 hne
    have z1 : z ∈ s.corners := by rcases hz with rfl | rfl; exacts [c2.1, c2.2]
    have z2 : z ∈ t.corners := by rcases hz with rfl | rfl; exacts [c4.1, c4.2]
    refine hdiff k l s t g3 g4 fun v => ?_
    rw [Tri.corners_of_three c1.1 c1.2 z1 l1.ne hza hzb, Tri.corners_of_three c3.1 c3.2 z2 l1.ne hza hzb]

/-- **C46** The cochains of the flow dataset: for a triangulation without repeated triangles and any flow on its
edges, building the cochain succeeds; two edges are lower adjacent when they share a vertex and upper adjacent when
they share a triangle, with the product of their signs there as orientation. (The signs are those of
`C41_entries`.) -/
theorem C46_flow_cochains [AddCommGroup R] (lib : SparseLib) (hlib : lib.Correct) (points : List P)
    (triangles : List Tri) (ht : Triangulates points triangles)
    (hdiff : ∀ (i j : Nat) s t, triangles[i]? = some s → triangles[j]? = some t →
      (∀ v, v ∈ s.corners ↔ v ∈ t.corners) → i = j) :
    ∃ G B1 B2, graphFromTriangulation points triangles = .ok G ∧
      extractBoundaryMatrices G triangles = .ok (B1, B2) ∧
      ∀ (x : List R) (label : L), x.length = G.edges.length →
        ∃ c li lo ui uo, buildCochain lib B1 B2 (Mat.identity B1.cols) x label (some G.edges.length) = .ok c ∧
          c.dim = 1 ∧ c.x = some x ∧ c.y = some [label] ∧ c.lowerIndex = some li ∧ c.lowerOrient = some lo ∧
          c.upperIndex = some ui ∧ c.upperOrient = some uo ∧
          AdjacencyOf points.length G.edges.length B1.entry li lo ∧
          AdjacencyOf triangles.length G.edges.length (fun i e => B2.entry e i) ui uo := by
  obtain ⟨G, B1, B2, hG, hnl, hB⟩ := C41_extraction_succeeds points triangles ht
  obtain ⟨edges, hs, hdict, r1, c1, r2, c2, m1, m2⟩ := C41_entries points triangles G B1 B2 hG hB
  have hlt : ∀ (e a b : Nat), edges[e]? = some (a, b) → a < b := fun e a b he =>
    ((hs.mem a b).mp (List.mem_of_getElem? he)).1
  have hel : edges.length = G.edges.length := by
    obtain ⟨wf, -, -⟩ := FlowGraph.graph_done hG
    obtain ⟨h1, h2⟩ := extract_parts hB
    obtain ⟨-, c1', -, -⟩ := edgeColumns_done wf h1
    rw [← c1, c1']
  have me1 := edges_meet_once hs.nodup c1 hlt m1
  have me2 := sides_meet_once hs.nodup r2 c2 hlt hdiff m2
  refine ⟨G, B1, B2, hG, hB, ?_⟩
  intro x label hx
  obtain ⟨D1, D2, g1, g2, e⟩ := buildCochain_diagonal lib B1 B2 (Mat.identity B1.cols) B1.cols (fun _ => 1) x label
    (some G.edges.length) rfl rfl (fun i j _ => rfl) rfl (by rw [r2, c1])
  obtain ⟨li, lo, a1, b1⟩ := (me1.congr g1).adjacency hlib
  obtain ⟨ui, uo, a2, b2⟩ := (me2.congr g2).adjacency hlib
  have k1 : D1.cols = G.edges.length := by rw [g1.cols, c1, hel]
  have k2 : D2.cols = G.edges.length := by rw [g2.cols]; show B2.rows = _; rw [r2, hel]
  have k3 : D1.rows = points.length := by rw [g1.rows, r1, hnl]
  have k4 : D2.rows = triangles.length := by rw [g2.rows]; show B2.cols = _; rw [c2]
  rw [k1] at a1 b1
  rw [k2] at a2 b2
  rw [k3] at b1
  rw [k4] at b2
  have hfit : fitRows B1.cols (fun _ => 1) x = .ok x := by
    unfold fitRows
    rw [if_pos (by rw [hx, c1, hel]), flipRows_one]
  rw [a1, a2, hfit] at e
  refine ⟨_, li, lo, ui, uo, e, rfl, rfl, rfl, rfl, rfl, rfl, rfl, b1.congr ?_, b2.congr ?_⟩
  · intro k e hk he
    rw [g1.entry k e (by rw [r1, hnl]; exact hk) (by rw [c1, hel]; exact he), one_mul]
  · intro k e hk he
    rw [g2.entry k e (by show k < B2.cols; rw [c2]; exact hk) (by show e < B2.rows; rw [r2, hel]; exact he), one_mul]
    rfl

/-- Two triangles with a common side. -/
example : (do
    let G ← graphFromTriangulation [(0 : Nat), 1, 2, 3] [(0, 1, 2), (2, 1, 3)]
    let B ← extractBoundaryMatrices G [(0, 1, 2), (2, 1, 3)]
    let c ← buildCochain rowMajorLib B.1 B.2 (Mat.identity 5) [(5 : Int), 6, 7, 8, 9] "label" (some 5)
    return (c.x, c.upperIndex, c.upperOrient) : Py _) =
    .ok (some [5, 6, 7, 8, 9],
      some [(1, 0), (0, 1), (2, 0), (0, 2), (2, 1), (1, 2), (3, 2), (2, 3), (4, 2), (2, 4), (4, 3), (3, 4)],
      some [-1, -1, 1, 1, -1, -1, 1, 1, -1, -1, -1, -1]) := by
  decide +kernel

/-- The same with the second edge reversed. -/
example : (do
    let G ← graphFromTriangulation [(0 : Nat), 1, 2, 3] [(0, 1, 2), (2, 1, 3)]
    let B ← extractBoundaryMatrices G [(0, 1, 2), (2, 1, 3)]
    let T ← orientMatrix 5 "random" (fun i => i != 1)
    let d ← buildCochain rowMajorLib B.1 B.2 T [(5 : Int), 6, 7, 8, 9] "label" (some 5)
    return (d.x, d.upperOrient) : Py _) =
    .ok (some [5, -6, 7, 8, 9], some [1, 1, 1, 1, 1, 1, 1, 1, -1, -1, -1, -1]) := by
  decide +kernel

/-- A repeated triangle is rejected: its sides would be adjacent twice. -/
example : (do
    let G ← graphFromTriangulation [(0 : Nat), 1, 2] [(0, 1, 2), (1, 2, 0)]
    let B ← extractBoundaryMatrices G [(0, 1, 2), (1, 2, 0)]
    let c ← buildCochain rowMajorLib B.1 B.2 (Mat.identity 3) [(5 : Int), 6, 7] "label" (some 3)
    return c.dim : Py _) = .error .assertion := by
  decide +kernel

/-- **C60** The classes of the samples: with fewer than two samples the division fails, otherwise the first half
(rounded down) is of class 0 and all others of class 1. -/
theorem C60_classes (n i : Nat) :
    (n < 2 → flowClass n i = .error .zeroDivision) ∧
    (2 ≤ n → flowClass n i = .ok (if i < n / 2 then 0 else 1)) := by
  unfold flowClass floorDiv
  constructor
  · intro h
    have : n / 2 = 0 := by omega
    rw [this]
    rfl
  · intro h
    rw [if_neg (by omega), ok_bind, decide_eq_true (by omega)]
    have : min (i / (n / 2)) 1 = if i < n / 2 then 0 else 1 := by
      split
      · next hi => rw [Nat.div_eq_of_lt hi]; rfl
      · next hi =>
        have := (Nat.one_le_div_iff (by omega : 0 < n / 2)).mpr (by omega : n / 2 ≤ i)
        omega
    rw [this]
    rfl

example : (List.range 5).map (flowClass 5) = [.ok 0, .ok 0, .ok 1, .ok 1, .ok 1] := by decide

/-- **C60** The classes of a whole dataset: half of the samples (rounded down) of class 0, then the others of class 1;
a dataset of one sample cannot be generated. -/
theorem C60_sizes (n : Nat) :
    (n ≠ 1 → mapE (flowClass n) (List.range n) = .ok (List.replicate (n / 2) 0 ++ List.replicate (n - n / 2) 1)) ∧
    (n = 1 → mapE (flowClass n) (List.range n) = .error .zeroDivision) := by
  constructor
  · intro hn
    by_cases h0 : n = 0
    · subst h0
      rfl
    rw [mapE_ok (g := fun i => if i < n / 2 then 0 else 1) (fun i _ => (C60_classes n i).2 (by omega)), ok_inj]
    apply List.ext_getElem
    · simp
      omega
    · intro i h1 h2
      simp only [List.getElem_map, List.getElem_range, List.getElem_append, List.length_replicate,
        List.getElem_replicate, dite_eq_ite]
  · rintro rfl
    rfl

example : mapE (flowClass 5) (List.range 5) = .ok [0, 0, 1, 1, 1] := by decide

end Verif
